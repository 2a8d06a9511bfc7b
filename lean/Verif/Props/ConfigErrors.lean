import Verif.Props.ConfigOrder
import Verif.Props.ConfigMore
import Verif.Props.FileErrors
import Verif.Spec.ConfigFaults

/-!
# Faulty configurations (C86)
-/

set_option autoImplicit false
set_option linter.unusedSectionVars false

namespace Popsynth

variable {F : Type} [LE F] [DecidableLE F]
variable {R : Registry F} {C : Conv F} {d d' e : Dict (PVal F)} {y : CSynth F} {k : String} {er : Err}

/-! ### The parts of the head -/

theorem head_of_ok (h : fromDict R C d = .ok y e) : ∃ y0, loadHead R C d = .ok y0 := by
  rw [fromDict_eq] at h
  unfold fromDictD at h
  cases hh : loadHead R C d with
  | error e => rw [hh] at h; cases h
  | ok y0 => exact ⟨y0, rfl⟩

theorem head_error (h : loadHead R C d = .error er) : fromDict R C d = .error er d := by
  rw [fromDict_eq]
  unfold fromDictD
  rw [h]

/-- What `from_dict` reads before the samplers. -/
structure HeadParts (R : Registry F) (C : Conv F) (d : Dict (PVal F)) where
  lum : Option (CDist F × DistCls F)
  sv : PVal F
  sp : CDist F × DistCls F
  spd : CDist F
  seedv : PVal F
  seed : Int
  fs : Option (CSel F)
  ds : Option (CSel F)
  ss : Option (CSel F)
  lum_eq : loadLum R C d = .ok lum
  sv_eq : lookup d "spatial distribution" = .ok sv
  sp_eq : loadDist R C sv = .ok sp
  spd_eq : loadRate sv sp = .ok spd
  seedv_eq : lookup d "seed" = .ok seedv
  seed_eq : C.int seedv = .ok seed
  isSpatial : sp.2.spatial = true
  isLum : ∀ l, lum = some l → l.2.luminosity = true
  fs_eq : loadOptSel R C (fun f => { f with flux := true }) d "flux selection" = .ok fs
  ds_eq : loadOptSel R C (fun f => { f with dist := true }) d "distance selection" = .ok ds
  ss_eq : loadOptSel R C id d "spatial selection" = .ok ss

def HeadParts.head (p : HeadParts R C d) : CSynth F :=
  { seed := p.seed, spatial := p.spd, lum := p.lum.map (·.1), fluxSel := p.fs, distSel := p.ds, spatSel := p.ss }

theorem HeadParts.dists (p : HeadParts R C d) :
    loadDists R C d = .ok (p.seed, p.spd, p.lum.map (·.1)) := by
  unfold loadDists
  rw [exc_bind p.lum_eq, exc_bind p.sv_eq, exc_bind p.sp_eq, exc_bind p.spd_eq, exc_bind p.seedv_eq,
    exc_bind p.seed_eq]
  have := p.isLum
  rw [p.isSpatial]
  rcases hl : p.lum with _ | l
  · rfl
  · simp only [this l hl]
    rfl

theorem HeadParts.go (p : HeadParts R C d) : loadHead R C d = .ok p.head := by
  unfold loadHead
  rw [exc_bind p.dists]
  simp only
  rw [exc_bind p.fs_eq, exc_bind p.ds_eq, exc_bind p.ss_eq]
  rfl

theorem head_parts {y0 : CSynth F} (h : loadHead R C d = .ok y0) :
    ∃ p : HeadParts R C d, p.head = y0 := by
  unfold loadHead at h
  obtain ⟨⟨a, b, c⟩, h1, h⟩ := exc_inv h
  obtain ⟨fs, h2, h⟩ := exc_inv h
  obtain ⟨ds, h3, h⟩ := exc_inv h
  obtain ⟨ss, h4, h⟩ := exc_inv h
  unfold loadDists at h1
  obtain ⟨lum, g1, h1⟩ := exc_inv h1
  obtain ⟨sv, g2, h1⟩ := exc_inv h1
  obtain ⟨sp, g3, h1⟩ := exc_inv h1
  obtain ⟨spd, g4, h1⟩ := exc_inv h1
  obtain ⟨sdv, g5, h1⟩ := exc_inv h1
  obtain ⟨sd, g6, h1⟩ := exc_inv h1
  have hs : sp.2.spatial = true := by
    cases hb : sp.2.spatial with
    | true => rfl
    | false => rw [hb] at h1; cases h1
  have hl : ∀ l, lum = some l → l.2.luminosity = true := by
    rintro l rfl
    cases hb : l.2.luminosity with
    | true => rfl
    | false => rw [hs] at h1; simp only [hb] at h1; cases h1
  let p : HeadParts R C d := ⟨lum, sv, sp, spd, sdv, sd, fs, ds, ss, g1, g2, g3, g4, g5, g6, hs, hl, h2, h3, h4⟩
  refine ⟨p, ?_⟩
  have : (Except.ok p.head : Except Err _) = .ok y0 := by
    rw [← p.go]
    unfold loadHead
    rw [exc_bind p.dists, show (p.seed, p.spd, p.lum.map (·.1)) = (a, b, c) from ?_]
    · simp only
      rw [exc_bind h2, exc_bind h3, exc_bind h4]
      exact h
    · have h5 : loadDists R C d = .ok (a, b, c) := by
        unfold loadDists
        rw [exc_bind g1, exc_bind g2, exc_bind g3, exc_bind g4, exc_bind g5, exc_bind g6]
        exact h1
      have := p.dists.symm.trans h5
      injection this
  injection this

theorem lookup_none {α : Type} {d : Dict α} (h : Dict.get? d k = none) : lookup d k = .error .key := by
  unfold lookup; rw [h]

theorem lookup_congr {α : Type} {d d' : Dict α} (h : Dict.get? d' k = Dict.get? d k) : lookup d' k = lookup d k := by
  unfold lookup; rw [h]

/-- The errors of the head, in the order of the code. -/
theorem head_lum (h : loadLum R C d = .error er) : fromDict R C d = .error er d := by
  refine head_error ?_
  unfold loadHead loadDists
  exact exc_error (exc_error h)

theorem head_spatial (p : HeadParts R C d) (hl : loadLum R C d' = loadLum R C d)
    (h : (lookup d' "spatial distribution" >>= loadDist R C) = .error er) :
    fromDict R C d' = .error er d' := by
  refine head_error ?_
  unfold loadHead loadDists
  refine exc_error ?_
  rw [exc_bind (hl.trans p.lum_eq)]
  cases hs : lookup d' "spatial distribution" with
  | error e => rw [hs] at h; cases h; rfl
  | ok sv =>
    rw [hs] at h
    exact exc_error (x := loadDist R C sv) h

theorem loadLum_congr (h : Dict.get? d' "luminosity distribution" = Dict.get? d "luminosity distribution") :
    loadLum R C d' = loadLum R C d := by
  unfold loadLum; rw [h]

theorem loadOptSel_congr {fl : SelFlags → SelFlags} (h : Dict.get? d' k = Dict.get? d k) :
    loadOptSel R C fl d' k = loadOptSel R C fl d k := by
  unfold loadOptSel; rw [h]

theorem loadDists_congr (h : ∀ j ∈ ["luminosity distribution", "spatial distribution", "seed"],
    Dict.get? d' j = Dict.get? d j) : loadDists R C d' = loadDists R C d := by
  unfold loadDists
  rw [loadLum_congr (h _ (by simp)), lookup_congr (h _ (by simp)), lookup_congr (h _ (by simp))]

theorem head_sel (p : HeadParts R C d) (hk : k ∈ Spec.selSections) {x : Option (PVal F)}
    (hc : Spec.EntryChanged d d' k x)
    (h : ∀ fl, loadOptSel R C fl d' k = .error er) : fromDict R C d' = .error er d' := by
  have hd : loadDists R C d' = .ok (p.seed, p.spd, p.lum.map (·.1)) := by
    rw [loadDists_congr fun j hj => hc.others j ((by decide : ∀ k ∈ Spec.selSections,
      ∀ j ∈ ["luminosity distribution", "spatial distribution", "seed"], j ≠ k) k hk j hj)]
    exact p.dists
  refine head_error ?_
  unfold loadHead
  rw [exc_bind hd]
  fin_cases hk
  · exact exc_error (h _)
  · refine (exc_bind ((loadOptSel_congr (hc.others _ (by decide))).trans p.fs_eq)).trans ?_
    exact exc_error (h _)
  · refine (exc_bind ((loadOptSel_congr (hc.others _ (by decide))).trans p.fs_eq)).trans ?_
    refine (exc_bind ((loadOptSel_congr (hc.others _ (by decide))).trans p.ds_eq)).trans ?_
    exact exc_error (h _)

theorem items_bad {v : PVal F} (h : ¬ Spec.IsMapping v) : v.items = .error .attribute := by
  cases v with
  | dict d => exact absurd ⟨d, rfl⟩ h
  | _ => rfl

theorem loadDist_bad {v : PVal F} (h : Spec.BadSection (Spec.KnownDist R) (Spec.BuiltDist R) v er) :
    loadDist R C v = .error er := by
  unfold loadDist
  cases h with
  | shape v hv => exact exc_error (items_bad hv)
  | empty => rfl
  | unknown v c hv hc =>
    obtain ⟨ps, rest, rfl⟩ := hv
    have : lookup R.dists c = .error .key := by
      refine lookup_none ?_
      cases hg : Dict.get? R.dists c with
      | none => rfl
      | some x => exact absurd ⟨x, hg⟩ hc
    refine (exc_bind (y := (c, ps) :: rest) rfl).trans ?_
    refine (exc_bind (y := (c, ps)) rfl).trans ?_
    exact exc_error this
  | noClass v c hv hc hb =>
    obtain ⟨ps, rest, rfl⟩ := hv
    obtain ⟨x, hx⟩ := hc
    have hct : x.ctorOk = false := by
      cases hg : x.ctorOk with
      | false => rfl
      | true => exact absurd ⟨x, hx, hg⟩ hb
    refine (exc_bind (y := (c, ps) :: rest) rfl).trans ?_
    refine (exc_bind (y := (c, ps)) rfl).trans ?_
    refine (exc_bind ((lookup_ok_iff ..).2 hx)).trans ?_
    rw [hct]
    rfl

theorem loadSel_bad {v : PVal F} {b : Bool} {fl : SelFlags → SelFlags}
    (h : Spec.BadSection (Spec.KnownSel R) (Spec.BuiltSel R) v er)
    (hn : v ≠ .none) : loadSel R C b fl v = .error er := by
  unfold loadSel
  cases h with
  | shape v hv =>
    cases v with
    | none => exact absurd rfl hn
    | dict d => exact absurd ⟨d, rfl⟩ hv
    | _ => rfl
  | empty => rfl
  | unknown v c hv hc =>
    obtain ⟨ps, rest, rfl⟩ := hv
    have : lookup R.sels c = .error .key := by
      refine lookup_none ?_
      cases hg : Dict.get? R.sels c with
      | none => rfl
      | some x => exact absurd ⟨x, hg⟩ hc
    refine (exc_bind (y := (c, ps) :: rest) rfl).trans ?_
    refine (exc_bind (y := (c, ps)) rfl).trans ?_
    exact exc_error this
  | noClass v c hv hc hb =>
    obtain ⟨ps, rest, rfl⟩ := hv
    obtain ⟨x, hx⟩ := hc
    have hct : x.ctorOk = false := by
      cases hg : x.ctorOk with
      | false => rfl
      | true => exact absurd ⟨x, hx, hg⟩ hb
    refine (exc_bind (y := (c, ps) :: rest) rfl).trans ?_
    refine (exc_bind (y := (c, ps)) rfl).trans ?_
    refine (exc_bind ((lookup_ok_iff ..).2 hx)).trans ?_
    rw [hct]
    rfl

/-- The error of a faulty distribution section. -/
theorem dist_fault {v : PVal F} (h : fromDict R C d = .ok y e) (hk : k ∈ Spec.distSections)
    (hc : Spec.EntryChanged d d' k (some v)) (hb : loadDist R C v = .error er) :
    fromDict R C d' = .error er d' := by
  obtain ⟨y0, hy⟩ := head_of_ok h
  obtain ⟨p, -⟩ := head_parts hy
  fin_cases hk
  · refine head_lum ?_
    unfold loadLum
    rw [hc.here]
    exact exc_error hb
  · refine head_spatial p (loadLum_congr (hc.others _ (by decide))) ?_
    exact (exc_bind ((lookup_ok_iff ..).2 hc.here)).trans hb

/-- The error of a faulty selection section. -/
theorem sel_fault {v : PVal F} (h : fromDict R C d = .ok y e) (hk : k ∈ Spec.selSections)
    (hc : Spec.EntryChanged d d' k (some v)) (hb : ∀ fl, loadSel R C false fl v = .error er) :
    fromDict R C d' = .error er d' := by
  obtain ⟨y0, hy⟩ := head_of_ok h
  obtain ⟨p, -⟩ := head_parts hy
  refine head_sel p hk hc fun fl => ?_
  unfold loadOptSel
  rw [hc.here]
  exact hb fl

/-- **C86** (missing parts): without a spatial distribution or a seed a configuration is refused with
`KeyError`; the dictionary is left as it was. -/
theorem C86_missing (h : fromDict R C d = .ok y e) (hk : k = "spatial distribution" ∨ k = "seed")
    (hc : Spec.EntryChanged d d' k none) : fromDict R C d' = .error .key d' := by
  obtain ⟨y0, hy⟩ := head_of_ok h
  obtain ⟨p, -⟩ := head_parts hy
  rcases hk with rfl | rfl
  · exact head_spatial p (loadLum_congr (hc.others _ (by decide))) (exc_error (lookup_none hc.here))
  · refine head_error ?_
    unfold loadHead loadDists
    refine exc_error ?_
    rw [exc_bind ((loadLum_congr (hc.others _ (by decide))).trans p.lum_eq),
      exc_bind ((lookup_congr (hc.others _ (by decide))).trans p.sv_eq), exc_bind p.sp_eq, exc_bind p.spd_eq]
    exact exc_error (lookup_none hc.here)

/-- **C86** (distributions): a section that is not a dictionary is refused with `AttributeError`, an empty
one with `IndexError`, an unknown class with `KeyError`, an abstract one with `TypeError`. -/
theorem C86_distribution {v : PVal F} (h : fromDict R C d = .ok y e) (hk : k ∈ Spec.distSections)
    (hc : Spec.EntryChanged d d' k (some v))
    (hb : Spec.BadSection (Spec.KnownDist R) (Spec.BuiltDist R) v er) :
    fromDict R C d' = .error er d' :=
  dist_fault h hk hc (loadDist_bad hb)

/-- **C86** (selections): the same for the selections, where `None` means no selection. -/
theorem C86_selection {v : PVal F} (h : fromDict R C d = .ok y e) (hk : k ∈ Spec.selSections)
    (hc : Spec.EntryChanged d d' k (some v)) (hn : v ≠ .none)
    (hb : Spec.BadSection (Spec.KnownSel R) (Spec.BuiltSel R) v er) :
    fromDict R C d' = .error er d' :=
  sel_fault h hk hc fun _ => loadSel_bad hb hn

/-! ### Seeds, kinds and rates -/

theorem noInt {v : PVal F} (h : Spec.NoNumber (fun s => ∃ i, C.intOfStr s = some i) v er) :
    C.int v = .error er := by
  cases h with
  | str s hs =>
    have : C.intOfStr s = none := by
      cases hg : C.intOfStr s with
      | none => rfl
      | some x => exact absurd ⟨x, hg⟩ hs
    simp only [Conv.int, this]
  | _ => rfl

theorem noFloat {v : PVal F} (h : Spec.NoNumber (fun s => ∃ x, C.ofStr s = some x) v er) :
    C.float v = .error er := by
  cases h with
  | str s hs =>
    have : C.ofStr s = none := by
      cases hg : C.ofStr s with
      | none => rfl
      | some x => exact absurd ⟨x, hg⟩ hs
    simp only [Conv.float, this]
  | _ => rfl

/-- **C86** (seed): a seed that is no integer is refused with the error of `int`. -/
theorem C86_seed {v : PVal F} (h : fromDict R C d = .ok y e) (hc : Spec.EntryChanged d d' "seed" (some v))
    (hb : Spec.NoNumber (fun s => ∃ i, C.intOfStr s = some i) v er) : fromDict R C d' = .error er d' := by
  obtain ⟨y0, hy⟩ := head_of_ok h
  obtain ⟨p, -⟩ := head_parts hy
  refine head_error ?_
  unfold loadHead loadDists
  refine exc_error ?_
  rw [exc_bind ((loadLum_congr (hc.others _ (by decide))).trans p.lum_eq),
    exc_bind ((lookup_congr (hc.others _ (by decide))).trans p.sv_eq), exc_bind p.sp_eq, exc_bind p.spd_eq,
    exc_bind ((lookup_ok_iff ..).2 hc.here)]
  exact exc_error (noInt hb)

/-- The class that a loaded section names. -/
theorem loadDist_cls {v : PVal F} {r : CDist F × DistCls F} {c : String} (h : loadDist R C v = .ok r)
    (hn : Spec.Names v c) : Dict.get? R.dists c = some r.2 := by
  obtain ⟨ps, rest, rfl⟩ := hn
  unfold loadDist at h
  obtain ⟨a, h1, h⟩ := exc_inv h
  cases h1
  obtain ⟨b, h1, h⟩ := exc_inv h
  cases h1
  obtain ⟨k, h1, h⟩ := exc_inv h
  have hk := (lookup_ok_iff ..).1 h1
  cases hb : k.ctorOk with
  | false => rw [hb] at h; cases h
  | true =>
    rw [hb] at h
    obtain ⟨_, -, h⟩ := exc_inv h
    obtain ⟨_, -, h⟩ := exc_inv h
    cases h
    exact hk

/-- **C86** (kinds): the section of the luminosities used for the positions is a `RuntimeError`. -/
theorem C86_no_spatial {v : PVal F} {c : String} {kd : DistCls F} (h : fromDict R C d = .ok y e)
    (hl : Dict.get? d "luminosity distribution" = some v) (hn : Spec.Names v c)
    (hk : Dict.get? R.dists c = some kd) (h1 : kd.spatial = false) (h2 : kd.cosmo = false)
    (hc : Spec.EntryChanged d d' "spatial distribution" (some v)) : fromDict R C d' = .error .runtime d' := by
  obtain ⟨y0, hy⟩ := head_of_ok h
  obtain ⟨p, -⟩ := head_parts hy
  have hlum := p.lum_eq
  unfold loadLum at hlum
  rw [hl] at hlum
  obtain ⟨r, hr, -⟩ := exc_inv hlum
  have hcls := loadDist_cls hr hn
  rw [hk] at hcls
  injection hcls with hcls
  have hrate : loadRate v r = .ok r.1 := by
    unfold loadRate; rw [← hcls, h2]; rfl
  refine head_error ?_
  unfold loadHead loadDists
  refine exc_error ?_
  rw [exc_bind ((loadLum_congr (hc.others _ (by decide))).trans p.lum_eq),
    exc_bind ((lookup_ok_iff ..).2 hc.here), exc_bind hr, exc_bind hrate,
    exc_bind ((lookup_congr (hc.others _ (by decide))).trans p.seedv_eq), exc_bind p.seed_eq]
  rw [← hcls, h1]
  rfl

/-- **C86** (kinds): the section of the positions used for the luminosities is a `RuntimeError`. -/
theorem C86_no_luminosity {v : PVal F} {c : String} {kd : DistCls F} (h : fromDict R C d = .ok y e)
    (hl : Dict.get? d "spatial distribution" = some v) (hn : Spec.Names v c)
    (hk : Dict.get? R.dists c = some kd) (h1 : kd.luminosity = false)
    (hc : Spec.EntryChanged d d' "luminosity distribution" (some v)) : fromDict R C d' = .error .runtime d' := by
  obtain ⟨y0, hy⟩ := head_of_ok h
  obtain ⟨p, -⟩ := head_parts hy
  have hv : p.sv = v := by
    have := (lookup_ok_iff ..).1 p.sv_eq
    rw [hl] at this
    injection this with this
    exact this.symm
  have hcls := loadDist_cls (hv ▸ p.sp_eq) hn
  rw [hk] at hcls
  injection hcls with hcls
  have hlum : loadLum R C d' = .ok (some p.sp) := by
    unfold loadLum
    rw [hc.here]
    exact (exc_bind (hv ▸ p.sp_eq)).trans rfl
  refine head_error ?_
  unfold loadHead loadDists
  refine exc_error ?_
  rw [exc_bind hlum, exc_bind ((lookup_congr (hc.others _ (by decide))).trans p.sv_eq), exc_bind p.sp_eq,
    exc_bind p.spd_eq, exc_bind ((lookup_congr (hc.others _ (by decide))).trans p.seedv_eq), exc_bind p.seed_eq,
    p.isSpatial]
  simp only [← hcls, h1]
  rfl

/-- **C86** (rates): the section of a cosmological distribution has to say `is_rate`. -/
theorem C86_rate {c : String} {ps : PVal F} {rest rest' : Dict (PVal F)} {kd : DistCls F}
    (h : fromDict R C d = .ok y e)
    (hs : Dict.get? d "spatial distribution" = some (.dict ((c, ps) :: rest)))
    (hk : Dict.get? R.dists c = some kd) (h1 : kd.cosmo = true)
    (hc : Spec.EntryChanged d d' "spatial distribution" (some (.dict ((c, ps) :: rest'))))
    (hr : Dict.get? ((c, ps) :: rest') "is_rate" = none) : fromDict R C d' = .error .key d' := by
  obtain ⟨y0, hy⟩ := head_of_ok h
  obtain ⟨p, -⟩ := head_parts hy
  have hv : p.sv = .dict ((c, ps) :: rest) := by
    have := (lookup_ok_iff ..).1 p.sv_eq
    rw [hs] at this
    injection this with this
    exact this.symm
  have hp := p.sp_eq
  rw [hv] at hp
  have hcls := loadDist_cls hp ⟨ps, rest, rfl⟩
  rw [hk] at hcls
  injection hcls with hcls
  have hp' : loadDist R C (.dict ((c, ps) :: rest')) = .ok p.sp := hp
  have hrate : loadRate (.dict ((c, ps) :: rest')) p.sp = .error .key := by
    unfold loadRate
    rw [← hcls, h1, if_pos rfl]
    refine (exc_bind (y := (c, ps) :: rest') rfl).trans ?_
    exact exc_error (lookup_none hr)
  refine head_error ?_
  unfold loadHead loadDists
  refine exc_error ?_
  rw [exc_bind ((loadLum_congr (hc.others _ (by decide))).trans p.lum_eq),
    exc_bind ((lookup_ok_iff ..).2 hc.here), exc_bind hp']
  exact exc_error hrate

/-! ### Parameters -/

/-- A value that cannot be set, and the error. -/
def Refused (C : Conv F) (p : ParamDecl F) (v : PVal F) (er : Err) : Prop :=
  Spec.NoNumber (fun s => ∃ x, C.ofStr s = some x) v er ∨
    p.free = true ∧ er = .runtime ∧ ∃ x, C.float v = .ok x ∧ Spec.OutOfBounds p x

theorem checkBounds {p : ParamDecl F} {x : F} (h : Spec.OutOfBounds p x) :
    checkMin p.vmin (some x) = .error .runtime ∨
      checkMin p.vmin (some x) = .ok () ∧ checkMax p.vmax (some x) = .error .runtime := by
  unfold checkMin checkMax
  rcases hv : p.vmin with _ | m
  · right
    rcases h with ⟨m, h1, -⟩ | ⟨m, h1, h2⟩
    · rw [hv] at h1; cases h1
    · rw [h1]; exact ⟨rfl, by simp [h2]⟩
  · by_cases hm : m ≤ x
    · right
      rcases h with ⟨m', h1, h2⟩ | ⟨m', h1, h2⟩
      · rw [hv] at h1; cases h1; exact absurd hm h2
      · rw [h1]; exact ⟨by simp [hm], by simp [h2]⟩
    · left; simp [hm]

theorem setParam_refused {p : ParamDecl F} {v : PVal F} (h : Refused C p v er) (o : Obj F) (n : String) :
    setParam C p o n v = .error er := by
  unfold setParam
  rcases h with h | ⟨hf, rfl, x, hx, hb⟩
  · exact exc_error (noFloat h)
  · rw [exc_bind hx]
    unfold paramSet
    simp only [hf, Bool.not_true, Bool.false_eq_true, if_false, bind_apply, modify_apply, liftE_apply]
    rcases checkBounds hb with h | ⟨h1, h2⟩
    · simp only [h]
    · simp only [h1, h2]

theorem setParams_refused {ok : String → Option (ParamDecl F)} {a b : Dict (PVal F)} {n : String} {v v' : PVal F}
    {p : ParamDecl F} (hp : ok n = some p) (hb : Refused C p v' er) (o o' : Obj F)
    (h : setParams C ok o (a ++ (n, v) :: b) = .ok o') :
    setParams C ok o (a ++ (n, v') :: b) = .error er := by
  induction a generalizing o with
  | nil =>
    simp only [List.nil_append, setParams, hp]
    exact exc_error (setParam_refused hb _ _)
  | cons q a ih =>
    obtain ⟨m, w⟩ := q
    simp only [List.cons_append, setParams] at h ⊢
    cases hm : ok m with
    | none => rw [hm] at h; exact ih _ h
    | some pm =>
      rw [hm] at h
      obtain ⟨o1, h1, h⟩ := exc_inv h
      exact (exc_bind h1).trans (ih _ h)

/-- **C86** (parameters): a parameter of the class with a value that is no number is refused with the error
of `float`, one out of bounds with `RuntimeError`. -/
theorem C86_parameter {c n : String} {a b rest : Dict (PVal F)} {v v' : PVal F} {kd : DistCls F} {p : ParamDecl F}
    (h : fromDict R C d = .ok y e) (hk : k ∈ Spec.distSections)
    (hs : Dict.get? d k = some (.dict ((c, .dict (a ++ (n, v) :: b)) :: rest)))
    (hd : Dict.get? R.dists c = some kd) (hp : Dict.get? kd.params n = some p)
    (hc : Spec.EntryChanged d d' k (some (.dict ((c, .dict (a ++ (n, v') :: b)) :: rest))))
    (hb : Spec.NoNumber (fun s => ∃ x, C.ofStr s = some x) v' er ∨
      p.free = true ∧ er = .runtime ∧ ∃ x, C.float v' = .ok x ∧ Spec.OutOfBounds p x) :
    fromDict R C d' = .error er d' := by
  refine dist_fault h hk hc ?_
  obtain ⟨y0, hy⟩ := head_of_ok h
  obtain ⟨q, -⟩ := head_parts hy
  have hl : ∃ r, loadDist R C (.dict ((c, .dict (a ++ (n, v) :: b)) :: rest)) = .ok r := by
    fin_cases hk
    · have hlum := q.lum_eq
      unfold loadLum at hlum
      rw [show Dict.get? d "luminosity distribution" = _ from hs] at hlum
      obtain ⟨r, hr, -⟩ := exc_inv hlum
      exact ⟨r, hr⟩
    · have := (lookup_ok_iff ..).1 q.sv_eq
      rw [show Dict.get? d "spatial distribution" = _ from hs] at this
      injection this with this
      exact ⟨_, this ▸ q.sp_eq⟩
  obtain ⟨r, hr⟩ := hl
  unfold loadDist at hr ⊢
  obtain ⟨t, h1, hr⟩ := exc_inv hr
  cases h1
  obtain ⟨t, h1, hr⟩ := exc_inv hr
  cases h1
  obtain ⟨kd', h1, hr⟩ := exc_inv hr
  have hkd := (lookup_ok_iff ..).1 h1
  rw [hd] at hkd
  injection hkd with hkd
  subst hkd
  refine (exc_bind (y := (c, PVal.dict (a ++ (n, v') :: b)) :: rest) rfl).trans ?_
  refine (exc_bind (y := (c, PVal.dict (a ++ (n, v') :: b))) rfl).trans ?_
  refine (exc_bind h1).trans ?_
  cases hct : kd.ctorOk with
  | false => rw [hct] at hr; cases hr
  | true =>
    rw [hct] at hr
    obtain ⟨t, h2, hr⟩ := exc_inv hr
    cases h2
    obtain ⟨o, h2, -⟩ := exc_inv hr
    refine (exc_bind (y := a ++ (n, v') :: b) rfl).trans ?_
    exact exc_error (setParams_refused hp hb _ _ h2)

theorem loadSel_refused {own : Bool} {fl : SelFlags → SelFlags} {c n : String} {a b rest : Dict (PVal F)}
    {v v' : PVal F} {ks : SelCls F} {p : ParamDecl F} {r : Option (CSel F)}
    (h : loadSel R C own fl (.dict ((c, .dict (a ++ (n, v) :: b)) :: rest)) = .ok r)
    (hd : Dict.get? R.sels c = some ks) (hp : Dict.get? ks.params n = some p)
    (ho : own = true → n ∈ ks.own) (hb : Refused C p v' er) :
    loadSel R C own fl (.dict ((c, .dict (a ++ (n, v') :: b)) :: rest)) = .error er := by
  unfold loadSel at h ⊢
  obtain ⟨t, h1, h⟩ := exc_inv h
  cases h1
  obtain ⟨t, h1, h⟩ := exc_inv h
  cases h1
  obtain ⟨ks', h1, h⟩ := exc_inv h
  have hks := (lookup_ok_iff ..).1 h1
  rw [hd] at hks
  injection hks with hks
  subst hks
  refine (exc_bind (y := (c, PVal.dict (a ++ (n, v') :: b)) :: rest) rfl).trans ?_
  refine (exc_bind (y := (c, PVal.dict (a ++ (n, v') :: b))) rfl).trans ?_
  refine (exc_bind h1).trans ?_
  cases hct : ks.ctorOk with
  | false => rw [hct] at h; cases h
  | true =>
    rw [hct] at h
    obtain ⟨t, h2, h⟩ := exc_inv h
    cases h2
    obtain ⟨o, h2, -⟩ := exc_inv h
    refine (exc_bind (y := a ++ (n, v') :: b) rfl).trans ?_
    refine exc_error (setParams_refused (p := p) ?_ hb _ _ h2)
    cases own with
    | false => exact hp
    | true => simp [ho rfl, hp]

/-- **C86** (parameters of selections): the same for the three selections of a configuration. -/
theorem C86_selection_parameter {c n : String} {a b rest : Dict (PVal F)} {v v' : PVal F} {ks : SelCls F}
    {p : ParamDecl F} (h : fromDict R C d = .ok y e) (hk : k ∈ Spec.selSections)
    (hs : Dict.get? d k = some (.dict ((c, .dict (a ++ (n, v) :: b)) :: rest)))
    (hd : Dict.get? R.sels c = some ks) (hp : Dict.get? ks.params n = some p)
    (hc : Spec.EntryChanged d d' k (some (.dict ((c, .dict (a ++ (n, v') :: b)) :: rest))))
    (hb : Spec.NoNumber (fun s => ∃ x, C.ofStr s = some x) v' er ∨
      p.free = true ∧ er = .runtime ∧ ∃ x, C.float v' = .ok x ∧ Spec.OutOfBounds p x) :
    fromDict R C d' = .error er d' := by
  obtain ⟨y0, hy⟩ := head_of_ok h
  obtain ⟨q, -⟩ := head_parts hy
  have hl : ∃ fl r, loadSel R C false fl (.dict ((c, .dict (a ++ (n, v) :: b)) :: rest)) = .ok r := by
    have go : ∀ {fl r}, loadOptSel R C fl d k = .ok r →
        ∃ fl r, loadSel R C false fl (.dict ((c, .dict (a ++ (n, v) :: b)) :: rest)) = .ok r := by
      intro fl r hr
      unfold loadOptSel at hr
      rw [hs] at hr
      exact ⟨fl, r, hr⟩
    fin_cases hk
    · exact go q.fs_eq
    · exact go q.ds_eq
    · exact go q.ss_eq
  obtain ⟨fl, r, hl⟩ := hl
  refine sel_fault h hk hc fun fl' => ?_
  have hl' : ∃ r, loadSel R C false fl' (.dict ((c, .dict (a ++ (n, v) :: b)) :: rest)) = .ok r := by
    unfold loadSel at hl ⊢
    obtain ⟨t, g1, hl⟩ := exc_inv hl
    cases g1
    obtain ⟨t, g1, hl⟩ := exc_inv hl
    cases g1
    obtain ⟨t, g2, hl⟩ := exc_inv hl
    cases hct : t.ctorOk with
    | false => rw [hct] at hl; cases hl
    | true =>
      rw [hct] at hl
      obtain ⟨w, g3, hl⟩ := exc_inv hl
      cases g3
      obtain ⟨o, g4, hl⟩ := exc_inv hl
      refine ⟨some { cls := c, obj := o, flags := fl' t.flags0 },
        (exc_bind (y := (c, PVal.dict (a ++ (n, v) :: b)) :: rest) rfl).trans ?_⟩
      refine (exc_bind (y := (c, PVal.dict (a ++ (n, v) :: b))) rfl).trans ?_
      refine (exc_bind g2).trans ?_
      rw [hct]
      refine (exc_bind (y := a ++ (n, v) :: b) rfl).trans ?_
      exact (exc_bind g4).trans rfl
  obtain ⟨r', hl'⟩ := hl'
  exact loadSel_refused hl' hd hp (fun h => by cases h) hb

/-! ### Sections left out -/

/-- The head of `h` with the samplers of `y`. -/
def withHead (h y : CSynth F) : CSynth F := { h with objs := y.objs, aux := y.aux, derived := y.derived }

theorem attachOne_head (h y : CSynth F) (i : String) :
    attachOne R (withHead h y) i = (withHead h) <$> attachOne R y i := by
  unfold attachOne
  have e1 : (withHead h y).objs = y.objs := rfl
  have e2 : (withHead h y).aux = y.aux := rfl
  rw [e1, e2]
  cases lookup y.objs i with
  | error e => rfl
  | ok c =>
    simp only [bind, Except.bind]
    split
    · rfl
    · split
      · rfl
      · split <;> rfl

theorem attachFold_head (l : List String) (h y : CSynth F) :
    l.foldlM (attachOne R) (withHead h y) = (withHead h) <$> l.foldlM (attachOne R) y := by
  induction l generalizing y with
  | nil => rfl
  | cons i l ih =>
    rw [List.foldlM_cons, List.foldlM_cons, attachOne_head]
    cases attachOne R y i with
    | error e => rfl
    | ok y1 => exact ih y1

theorem attach_head (h y : CSynth F) (rs : Dict (CSampler F × Option (List (Option String)))) :
    attach R (withHead h y) rs = (withHead h) <$> attach R y rs := by
  unfold attach
  simp only
  cases linkEntries (rs.filterMap fun p => p.2.2.map fun l => (p.1, l)) (rs.map fun p => (p.1, p.2.1)) with
  | error e => rfl
  | ok objs => exact attachFold_head _ h { y with objs := objs }

/-- Configurations with the same samplers. -/
theorem fromDict_heads {y0 y0' : CSynth F} (h : fromDict R C d = .ok y e)
    (hh : loadHead R C d = .ok y0) (hh' : loadHead R C d' = .ok y0')
    (ha : Dict.get? d' "auxiliary samplers" = Dict.get? d "auxiliary samplers")
    (h1 : y0.objs = [] ∧ y0.aux = [] ∧ y0.derived = none) (h2 : y0'.objs = [] ∧ y0'.aux = [] ∧ y0'.derived = none) :
    y = withHead y0 y ∧ ∃ e', fromDict R C d' = .ok (withHead y0' y) e' := by
  have k1 : y0 = withHead y0 y0 := rfl
  have k2 : y0' = withHead y0' y0 := by
    obtain ⟨_, _, _, _, _, _, _, _, _⟩ := y0
    obtain ⟨_, _, _, _, _, _, _, _, _⟩ := y0'
    obtain ⟨rfl, rfl, rfl⟩ := h1
    obtain ⟨rfl, rfl, rfl⟩ := h2
    rfl
  rw [fromDict_eq] at h ⊢
  unfold fromDictD at h ⊢
  rw [hh] at h
  rw [hh', ha]
  simp only at h ⊢
  rcases hv : Dict.get? d "auxiliary samplers" with _ | v
  · rw [hv] at h
    cases h
    exact ⟨rfl, d', by simp only; rw [← k2]⟩
  · rw [hv] at h
    simp only at h ⊢
    rcases hi : v.items with er | es
    · rw [hi] at h; cases h
    · rw [hi] at h
      simp only at h ⊢
      rcases hl : (loadEntries R C es).1 with er | rs
      · rw [hl] at h; cases h
      · rw [hl] at h
        simp only at h ⊢
        rcases hat : attach R y0 rs with er | y1
        · rw [hat] at h; cases h
        · rw [hat] at h
          cases h
          have g1 : attach R y0' rs = .ok (withHead y0' y) := by
            rw [k2, attach_head, hat]; rfl
          have g2 : attach R y0 rs = .ok (withHead y0 y) := by
            conv_lhs => rw [k1]
            rw [attach_head, hat]; rfl
          rw [hat] at g2
          injection g2 with g2
          exact ⟨g2, _, by rw [g1]⟩

/-- **C86** (no luminosity distribution): the same configuration without one. -/
theorem C86_without_luminosity (h : fromDict R C d = .ok y e)
    (hc : Spec.EntryChanged d d' "luminosity distribution" none) :
    ∃ e', fromDict R C d' = .ok { y with lum := none } e' := by
  obtain ⟨y0, hy⟩ := head_of_ok h
  obtain ⟨p, rfl⟩ := head_parts hy
  let p' : HeadParts R C d' := ⟨none, p.sv, p.sp, p.spd, p.seedv, p.seed, p.fs, p.ds, p.ss,
    by unfold loadLum; rw [hc.here], (lookup_congr (hc.others _ (by decide))).trans p.sv_eq, p.sp_eq, p.spd_eq,
    (lookup_congr (hc.others _ (by decide))).trans p.seedv_eq, p.seed_eq, p.isSpatial, fun l hl => (by cases hl),
    (loadOptSel_congr (hc.others _ (by decide))).trans p.fs_eq,
    (loadOptSel_congr (hc.others _ (by decide))).trans p.ds_eq,
    (loadOptSel_congr (hc.others _ (by decide))).trans p.ss_eq⟩
  obtain ⟨g1, e', g2⟩ := fromDict_heads h hy p'.go (hc.others _ (by decide)) ⟨rfl, rfl, rfl⟩ ⟨rfl, rfl, rfl⟩
  refine ⟨e', ?_⟩
  rw [g2, g1]
  rfl

theorem loadOptSel_off {fl : SelFlags → SelFlags}
    (h : Dict.get? d' k = none ∨ Dict.get? d' k = some .none) : loadOptSel R C fl d' k = .ok none := by
  unfold loadOptSel
  rcases h with h | h <;> rw [h]
  rfl

/-- **C86** (no selection): a selection section that is left out or `None` means no selection. -/
theorem C86_without_selection {x : Option (PVal F)} (h : fromDict R C d = .ok y e)
    (hk : k ∈ Spec.selSections) (hc : Spec.EntryChanged d d' k x) (hx : x = none ∨ x = some .none) :
    ∃ y' e', fromDict R C d' = .ok y' e' ∧
      y' = { y with
        fluxSel := if k = "flux selection" then none else y.fluxSel
        distSel := if k = "distance selection" then none else y.distSel
        spatSel := if k = "spatial selection" then none else y.spatSel } := by
  obtain ⟨y0, hy⟩ := head_of_ok h
  obtain ⟨p, rfl⟩ := head_parts hy
  have hx' : Dict.get? d' k = none ∨ Dict.get? d' k = some .none := by rw [hc.here]; exact hx
  have hn : ∀ j ∈ ["luminosity distribution", "spatial distribution", "seed", "auxiliary samplers"], j ≠ k :=
    (by decide : ∀ k ∈ Spec.selSections,
      ∀ j ∈ ["luminosity distribution", "spatial distribution", "seed", "auxiliary samplers"], j ≠ k) k hk
  have sel : ∀ (fl : SelFlags → SelFlags) j v, loadOptSel R C fl d j = .ok v →
      loadOptSel R C fl d' j = .ok (if k = j then none else v) := by
    intro fl j v hv
    by_cases e : k = j
    · subst e; rw [if_pos rfl]; exact loadOptSel_off hx'
    · rw [if_neg e, loadOptSel_congr (hc.others _ (Ne.symm e))]; exact hv
  let p' : HeadParts R C d' := ⟨p.lum, p.sv, p.sp, p.spd, p.seedv, p.seed, _, _, _,
    (loadLum_congr (hc.others _ (hn _ (by simp)))).trans p.lum_eq,
    (lookup_congr (hc.others _ (hn _ (by simp)))).trans p.sv_eq, p.sp_eq, p.spd_eq,
    (lookup_congr (hc.others _ (hn _ (by simp)))).trans p.seedv_eq, p.seed_eq, p.isSpatial, p.isLum,
    sel _ _ _ p.fs_eq, sel _ _ _ p.ds_eq, sel _ _ _ p.ss_eq⟩
  obtain ⟨g1, e', g2⟩ := fromDict_heads h hy p'.go (hc.others _ (hn _ (by simp))) ⟨rfl, rfl, rfl⟩ ⟨rfl, rfl, rfl⟩
  refine ⟨_, e', g2, ?_⟩
  rw [g1]
  rfl

/-! ### Samplers -/

/-- **C86** (samplers): a section of samplers that is no dictionary, `None` included, is refused with
`AttributeError`. -/
theorem C86_samplers {v : PVal F} (h : fromDict R C d = .ok y e)
    (hc : Spec.EntryChanged d d' "auxiliary samplers" (some v)) (hv : ¬ Spec.IsMapping v) :
    fromDict R C d' = .error .attribute d' := by
  obtain ⟨y0, hy⟩ := head_of_ok h
  rw [fromDict_eq]
  unfold fromDictD
  rw [loadHead_congr R C d d' fun j hj => hc.others j hj, hy, hc.here]
  simp only
  rw [items_bad hv]

theorem entries_ok {es : Dict (PVal F)} (h : fromDict R C d = .ok y e)
    (hs : Dict.get? d "auxiliary samplers" = some (.dict es)) :
    ∃ y0 rs, loadHead R C d = .ok y0 ∧ (loadEntries R C es).1 = .ok rs ∧ attach R y0 rs = .ok y := by
  obtain ⟨y0, hy⟩ := head_of_ok h
  rw [fromDict_eq] at h
  unfold fromDictD at h
  rw [hy, hs] at h
  simp only [PVal.items] at h
  rcases hl : (loadEntries R C es).1 with er | rs
  · rw [hl] at h; cases h
  · rw [hl] at h
    simp only at h
    rcases hat : attach R y0 rs with er | y1
    · rw [hat] at h; cases h
    · rw [hat] at h
      cases h
      exact ⟨y0, rs, hy, rfl, hat⟩

theorem loadEntries_split {a b : Dict (PVal F)} {n : String} {v v' : PVal F}
    (h : ∃ rs, (loadEntries R C (a ++ (n, v) :: b)).1 = .ok rs)
    (hv : (onEntry R C n v').1 = .error er) : (loadEntries R C (a ++ (n, v') :: b)).1 = .error er := by
  induction a with
  | nil =>
    simp only [List.nil_append, loadEntries]
    rcases ho : onEntry R C n v' with ⟨r, w⟩
    rw [ho] at hv
    simp only at hv
    subst hv
    rfl
  | cons q a ih =>
    obtain ⟨m, w⟩ := q
    obtain ⟨rs, h⟩ := h
    simp only [List.cons_append, loadEntries] at h ⊢
    rcases ho : onEntry R C m w with ⟨r | r, w'⟩
    · rw [ho] at h; cases h
    · rw [ho] at h
      simp only at h ⊢
      rcases hl : loadEntries R C (a ++ (n, v) :: b) with ⟨r1 | r1, w1⟩
      · rw [hl] at h; cases h
      · have := ih ⟨r1, by rw [hl]⟩
        rcases hl' : loadEntries R C (a ++ (n, v') :: b) with ⟨r2 | r2, w2⟩
        · rw [hl'] at this
          simp only at this
          rw [this]
        · rw [hl'] at this; cases this

/-- The error of a faulty entry. -/
theorem entry_fault {a b : Dict (PVal F)} {n : String} {v v' : PVal F} (h : fromDict R C d = .ok y e)
    (hs : Dict.get? d "auxiliary samplers" = some (.dict (a ++ (n, v) :: b)))
    (hc : Spec.EntryChanged d d' "auxiliary samplers" (some (.dict (a ++ (n, v') :: b))))
    (hv : (onEntry R C n v').1 = .error er) : outcome (fromDict R C d') = .error er := by
  obtain ⟨y0, rs, hy, hl, -⟩ := entries_ok h hs
  rw [fromDict_eq]
  unfold fromDictD
  rw [loadHead_congr R C d d' fun j hj => hc.others j hj, hy, hc.here]
  simp only [PVal.items]
  rw [loadEntries_split ⟨rs, hl⟩ hv]
  rfl

theorem onEntry_outcome (n : String) (t : Dict (PVal F)) :
    (onEntry R C n (.dict t)).1 = outcome (loadEntry R C n t) := by
  unfold onEntry
  simp only
  cases loadEntry R C n t <;> rfl

theorem onEntry_ok_of {a b : Dict (PVal F)} {n : String} {v : PVal F} (h : fromDict R C d = .ok y e)
    (hs : Dict.get? d "auxiliary samplers" = some (.dict (a ++ (n, v) :: b))) :
    ∃ r, (onEntry R C n v).1 = .ok r := by
  obtain ⟨y0, rs, hy, hl, -⟩ := entries_ok h hs
  exact (loadEntries_iff R C _).1.1 ⟨rs, hl⟩ n v (by simp)

/-- **C86** (entries): the entry of a sampler that is no dictionary is refused with `AttributeError`. -/
theorem C86_entry {a b : Dict (PVal F)} {n : String} {v v' : PVal F} (h : fromDict R C d = .ok y e)
    (hs : Dict.get? d "auxiliary samplers" = some (.dict (a ++ (n, v) :: b)))
    (hc : Spec.EntryChanged d d' "auxiliary samplers" (some (.dict (a ++ (n, v') :: b))))
    (hv : ¬ Spec.IsMapping v') : outcome (fromDict R C d') = .error .attribute := by
  refine entry_fault h hs hc ?_
  unfold onEntry
  cases v' with
  | dict t => exact absurd ⟨t, rfl⟩ hv
  | _ => rfl

/-- **C86** (entries): without `type` or `observed` it is a `KeyError`. -/
theorem C86_entry_keys {a b t' : Dict (PVal F)} {n : String} {v : PVal F} (h : fromDict R C d = .ok y e)
    (hs : Dict.get? d "auxiliary samplers" = some (.dict (a ++ (n, v) :: b)))
    (hc : Spec.EntryChanged d d' "auxiliary samplers" (some (.dict (a ++ (n, .dict t') :: b))))
    (hn : (Dict.keys t').Nodup)
    (hk : Dict.get? t' "type" = none ∨ Dict.get? t' "observed" = none) :
    outcome (fromDict R C d') = .error .key := by
  refine entry_fault h hs hc ?_
  rw [onEntry_outcome, loadEntry_outcome R C n t' hn]
  rcases hk with hk | hk
  · exact exc_error (lookup_none hk)
  · rcases hl : lookup t' "type" with er | x
    · unfold lookup at hl
      cases hg : Dict.get? t' "type" with
      | none => rw [hg] at hl; cases hl; rfl
      | some x => rw [hg] at hl; cases hl
    · exact (exc_bind (y := x) rfl).trans (exc_error (lookup_none hk))

/-- The parts of an entry that loads. -/
theorem entry_parts {t : Dict (PVal F)} {n : String} {r : CSampler F × Option (List (Option String))}
    (hn : (Dict.keys t).Nodup) (h : (onEntry R C n (.dict t)).1 = .ok r) :
    ∃ ty ob sec ini cls c o, lookup t "type" = .ok ty ∧ lookup t "observed" = .ok ob ∧
      secNamesOpt (Dict.get? t "secondary") = .ok sec ∧ initNames (Dict.get? t "init variables") = .ok ini ∧
      className ty = .ok cls ∧ construct R cls n ob ini = .ok c ∧
      setParams C (Dict.get? (match Dict.get? R.samplers cls with
        | none => []
        | some k => k.params)) {} (leftOver t) = .ok o := by
  rw [onEntry_outcome, loadEntry_outcome R C n t hn] at h
  obtain ⟨ty, h1, h⟩ := exc_inv h
  obtain ⟨ob, h2, h⟩ := exc_inv h
  unfold finishEntry at h
  obtain ⟨sec, h3, h⟩ := exc_inv h
  obtain ⟨ini, h4, h⟩ := exc_inv h
  obtain ⟨cls, h5, h⟩ := exc_inv h
  obtain ⟨c, h6, h⟩ := exc_inv h
  obtain ⟨o, h7, h⟩ := exc_inv h
  exact ⟨ty, ob, sec, ini, cls, c, o, h1, h2, h3, h4, h5, h6, h7⟩

/-- **C86** (types): a type that is no string, or no registered sampler, is a `KeyError`; one that cannot be
constructed is a `TypeError`. -/
theorem C86_type {a b t t' : Dict (PVal F)} {n : String} {x : PVal F} (h : fromDict R C d = .ok y e)
    (hs : Dict.get? d "auxiliary samplers" = some (.dict (a ++ (n, .dict t) :: b)))
    (hc : Spec.EntryChanged d d' "auxiliary samplers" (some (.dict (a ++ (n, .dict t') :: b))))
    (hn : (Dict.keys t).Nodup) (hn' : (Dict.keys t').Nodup) (ht : Spec.EntryChanged t t' "type" (some x))
    (hx : er = .key ∧ (∀ s, x = .str s → Dict.get? R.samplers s = none) ∨
      er = .type ∧ ∃ s kd, x = .str s ∧ Dict.get? R.samplers s = some kd ∧ ∀ a b l, kd.accepts a b l = false) :
    outcome (fromDict R C d') = .error er := by
  refine entry_fault h hs hc ?_
  obtain ⟨r, hr⟩ := onEntry_ok_of h hs
  obtain ⟨ty, ob, sec, ini, cls, c, o, h1, h2, h3, h4, h5, h6, h7⟩ := entry_parts hn hr
  rw [onEntry_outcome, loadEntry_outcome R C n t' hn', exc_bind ((lookup_ok_iff ..).2 ht.here),
    exc_bind ((lookup_congr (ht.others _ (by decide))).trans h2)]
  unfold finishEntry
  rw [ht.others "secondary" (by decide), ht.others "init variables" (by decide), exc_bind h3, exc_bind h4]
  rcases hx with ⟨rfl, hx⟩ | ⟨rfl, s, kd, rfl, hk, ha⟩
  · cases x with
    | str s =>
      refine (exc_bind (y := s) rfl).trans ?_
      refine exc_error ?_
      unfold construct
      exact exc_error (lookup_none (hx s rfl))
    | _ => rfl
  · refine (exc_bind (y := s) rfl).trans ?_
    refine exc_error ?_
    unfold construct
    rw [exc_bind ((lookup_ok_iff ..).2 hk)]
    simp [ha]

/-- **C86** (constructor arguments): `init variables` that are neither a dictionary nor `None` are a
`TypeError`. -/
theorem C86_init {a b t t' : Dict (PVal F)} {n : String} {x : PVal F} (h : fromDict R C d = .ok y e)
    (hs : Dict.get? d "auxiliary samplers" = some (.dict (a ++ (n, .dict t) :: b)))
    (hc : Spec.EntryChanged d d' "auxiliary samplers" (some (.dict (a ++ (n, .dict t') :: b))))
    (hn : (Dict.keys t).Nodup) (hn' : (Dict.keys t').Nodup)
    (ht : Spec.EntryChanged t t' "init variables" (some x)) (hx : ¬ Spec.IsMapping x) (hx' : x ≠ .none) :
    outcome (fromDict R C d') = .error .type := by
  refine entry_fault h hs hc ?_
  obtain ⟨r, hr⟩ := onEntry_ok_of h hs
  obtain ⟨ty, ob, sec, ini, cls, c, o, h1, h2, h3, h4, h5, h6, h7⟩ := entry_parts hn hr
  rw [onEntry_outcome, loadEntry_outcome R C n t' hn', exc_bind ((lookup_congr (ht.others _ (by decide))).trans h1),
    exc_bind ((lookup_congr (ht.others _ (by decide))).trans h2)]
  unfold finishEntry
  rw [ht.others "secondary" (by decide), ht.here, exc_bind h3]
  refine exc_error ?_
  cases x with
  | dict t => exact absurd ⟨t, rfl⟩ hx
  | none => exact absurd rfl hx'
  | _ => rfl

theorem erase_set_self {α : Type} (t : Dict α) (k : String) (v : α) (h : (Dict.keys t).Nodup) :
    Dict.erase (Dict.set t k v) k = Dict.erase t k := by
  induction t with
  | nil => simp [Dict.set, Dict.erase]
  | cons p t ih =>
    obtain ⟨a, w⟩ := p
    have h' : (Dict.keys t).Nodup := (List.nodup_cons.1 h).2
    by_cases e : a = k
    · simp [Dict.set, Dict.erase, e]
    · simp [Dict.set, Dict.erase, e, ih h']

theorem erase_set_ne {α : Type} (t : Dict α) (j k : String) (v : α) (h : j ≠ k) :
    Dict.erase (Dict.set t k v) j = Dict.set (Dict.erase t j) k v := by
  induction t with
  | nil => simp [Dict.set, Dict.erase, Ne.symm h]
  | cons p t ih =>
    obtain ⟨a, w⟩ := p
    by_cases e : a = k
    · subst e
      simp [Dict.set, Dict.erase, Ne.symm h]
    · by_cases e' : a = j
      · simp [Dict.set, Dict.erase, e', h]
      · simp [Dict.set, Dict.erase, e, e', ih]

theorem leftOver_selection (t : Dict (PVal F)) (v : PVal F) (h : (Dict.keys t).Nodup) :
    leftOver (Dict.set t "selection" v) = leftOver t := by
  unfold leftOver
  simp only [List.foldl_cons, List.foldl_nil]
  rw [erase_set_ne _ _ _ _ (by decide), erase_set_ne _ _ _ _ (by decide),
    erase_set_self _ _ _ (nodup_erase _ _ (nodup_erase _ _ h))]

theorem leftOver_secondary (t : Dict (PVal F)) (v : PVal F) (h : (Dict.keys t).Nodup) :
    leftOver (Dict.set t "secondary" v) = leftOver t := by
  unfold leftOver
  simp only [List.foldl_cons, List.foldl_nil]
  rw [erase_set_ne _ _ _ _ (by decide), erase_set_ne _ _ _ _ (by decide), erase_set_ne _ _ _ _ (by decide),
    erase_set_self _ _ _ (nodup_erase _ _ (nodup_erase _ _ (nodup_erase _ _ h)))]

/-- **C86** (selections of samplers): the errors are those of the other selections. -/
theorem C86_sampler_selection {a b t : Dict (PVal F)} {n : String} {x : PVal F} (h : fromDict R C d = .ok y e)
    (hs : Dict.get? d "auxiliary samplers" = some (.dict (a ++ (n, .dict t) :: b)))
    (hc : Spec.EntryChanged d d' "auxiliary samplers"
      (some (.dict (a ++ (n, .dict (Dict.set t "selection" x)) :: b))))
    (hn : (Dict.keys t).Nodup) (hx : x ≠ .none)
    (hb : Spec.BadSection (Spec.KnownSel R) (Spec.BuiltSel R) x er) :
    outcome (fromDict R C d') = .error er := by
  refine entry_fault h hs hc ?_
  obtain ⟨r, hr⟩ := onEntry_ok_of h hs
  obtain ⟨ty, ob, sec, ini, cls, c, o, h1, h2, h3, h4, h5, h6, h7⟩ := entry_parts hn hr
  have g : ∀ j, "selection" ≠ j → Dict.get? (Dict.set t "selection" x) j = Dict.get? t j :=
    fun j hj => Dict.get?_set_ne _ _ hj
  rw [onEntry_outcome, loadEntry_outcome R C n _ (Dict.nodup_keys_set _ _ _ hn),
    exc_bind ((lookup_congr (g _ (by decide))).trans h1), exc_bind ((lookup_congr (g _ (by decide))).trans h2)]
  unfold finishEntry
  rw [g "secondary" (by decide), g "init variables" (by decide), exc_bind h3, exc_bind h4, exc_bind h5, exc_bind h6,
    leftOver_selection t x hn, Dict.get?_set_self]
  refine (exc_bind h7).trans ?_
  exact exc_error (loadSel_bad hb hx)

theorem setParams_set {ok : String → Option (ParamDecl F)} {n : String} {v : PVal F} {p : ParamDecl F}
    (hp : ok n = some p) (hb : Refused C p v er) : ∀ (l : Dict (PVal F)) (o o' : Obj F),
    setParams C ok o l = .ok o' → setParams C ok o (Dict.set l n v) = .error er
  | [], o, o', _ => by
    simp only [Dict.set, setParams, hp]
    exact exc_error (setParam_refused hb _ _)
  | (m, w) :: l, o, o', h => by
    by_cases e : m = n
    · subst e
      simp only [Dict.set, if_true, setParams, hp]
      exact exc_error (setParam_refused hb _ _)
    · simp only [Dict.set, if_neg e, setParams] at h ⊢
      cases hm : ok m with
      | none => rw [hm] at h; exact setParams_set hp hb l _ _ h
      | some pm =>
        rw [hm] at h
        obtain ⟨o1, h1, h⟩ := exc_inv h
        exact (exc_bind h1).trans (setParams_set hp hb l _ _ h)

theorem leftOver_set (t : Dict (PVal F)) (m : String) (v : PVal F) (hm : m ∉ Spec.entryKeys) :
    leftOver (Dict.set t m v) = Dict.set (leftOver t) m v := by
  simp only [Spec.entryKeys, List.mem_cons, List.not_mem_nil, or_false, not_or] at hm
  obtain ⟨m1, m2, m3, m4, m5⟩ := hm
  unfold leftOver
  simp only [List.foldl_cons, List.foldl_nil]
  rw [erase_set_ne _ _ _ _ (Ne.symm m1), erase_set_ne _ _ _ _ (Ne.symm m2), erase_set_ne _ _ _ _ (Ne.symm m3),
    erase_set_ne _ _ _ _ (Ne.symm m4), erase_set_ne _ _ _ _ (Ne.symm m5)]

/-- **C86** (parameters of samplers): a parameter of the class of a sampler, whether it was given before or not,
with a value that is no number is refused with the error of `float`, one out of bounds with
`RuntimeError`. -/
theorem C86_sampler_parameter {a b t : Dict (PVal F)} {n m c : String} {x : PVal F} {ks : SamplerCls F}
    {p : ParamDecl F} (h : fromDict R C d = .ok y e)
    (hs : Dict.get? d "auxiliary samplers" = some (.dict (a ++ (n, .dict t) :: b)))
    (hc : Spec.EntryChanged d d' "auxiliary samplers"
      (some (.dict (a ++ (n, .dict (Dict.set t m x)) :: b))))
    (hn : (Dict.keys t).Nodup) (hm : m ∉ Spec.entryKeys)
    (ht : Dict.get? t "type" = some (.str c)) (hd : Dict.get? R.samplers c = some ks)
    (hp : Dict.get? ks.params m = some p)
    (hb : Spec.NoNumber (fun s => ∃ x, C.ofStr s = some x) x er ∨
      p.free = true ∧ er = .runtime ∧ ∃ z, C.float x = .ok z ∧ Spec.OutOfBounds p z) :
    outcome (fromDict R C d') = .error er := by
  refine entry_fault h hs hc ?_
  obtain ⟨r, hr⟩ := onEntry_ok_of h hs
  obtain ⟨ty, ob, sec, ini, cls, c', o, h1, h2, h3, h4, h5, h6, h7⟩ := entry_parts hn hr
  have g : ∀ j ∈ Spec.entryKeys, Dict.get? (Dict.set t m x) j = Dict.get? t j :=
    fun j hj => Dict.get?_set_ne _ _ fun e => hm (e ▸ hj)
  have e1 := (lookup_ok_iff ..).1 h1
  rw [ht] at e1
  injection e1 with e1
  subst e1
  cases h5
  simp only [hd] at h7
  rw [onEntry_outcome, loadEntry_outcome R C n _ (Dict.nodup_keys_set _ _ _ hn),
    exc_bind ((lookup_congr (g _ (by decide))).trans h1), exc_bind ((lookup_congr (g _ (by decide))).trans h2)]
  unfold finishEntry
  rw [g "secondary" (by decide), g "init variables" (by decide), exc_bind h3, exc_bind h4,
    exc_bind (show className (PVal.str c) = .ok c from rfl), exc_bind h6, leftOver_set t m x hm]
  simp only [hd]
  exact exc_error (setParams_set hp hb _ _ _ h7)

/-- **C86** (parameters of the selections of samplers): only parameters declared by the class itself are
looked at; for these the errors are the same. -/
theorem C86_sampler_selection_parameter {a b t pa pb rest : Dict (PVal F)} {n m c : String} {v x : PVal F}
    {ks : SelCls F} {p : ParamDecl F} (h : fromDict R C d = .ok y e)
    (hs : Dict.get? d "auxiliary samplers" = some (.dict (a ++ (n, .dict t) :: b)))
    (ht : Dict.get? t "selection" = some (.dict ((c, .dict (pa ++ (m, v) :: pb)) :: rest)))
    (hc : Spec.EntryChanged d d' "auxiliary samplers"
      (some (.dict (a ++ (n, .dict (Dict.set t "selection"
        (.dict ((c, .dict (pa ++ (m, x) :: pb)) :: rest)))) :: b))))
    (hn : (Dict.keys t).Nodup) (hd : Dict.get? R.sels c = some ks) (hp : Dict.get? ks.params m = some p)
    (ho : m ∈ ks.own)
    (hb : Spec.NoNumber (fun s => ∃ x, C.ofStr s = some x) x er ∨
      p.free = true ∧ er = .runtime ∧ ∃ z, C.float x = .ok z ∧ Spec.OutOfBounds p z) :
    outcome (fromDict R C d') = .error er := by
  refine entry_fault h hs hc ?_
  obtain ⟨r, hr⟩ := onEntry_ok_of h hs
  obtain ⟨ty, ob, sec, ini, cls, c', o, h1, h2, h3, h4, h5, h6, h7⟩ := entry_parts hn hr
  have hl : ∃ r, loadSel R C true (fun f => { f with obs := true })
      (.dict ((c, .dict (pa ++ (m, v) :: pb)) :: rest)) = .ok r := by
    rw [onEntry_outcome, loadEntry_outcome R C n _ hn, exc_bind h1, exc_bind h2] at hr
    unfold finishEntry at hr
    rw [exc_bind h3, exc_bind h4, exc_bind h5, exc_bind h6, ht] at hr
    replace hr := (exc_bind h7).symm.trans hr
    obtain ⟨s, g1, -⟩ := exc_inv hr
    exact ⟨s, g1⟩
  obtain ⟨r', hl⟩ := hl
  have hbad := loadSel_refused hl hd hp (fun _ => ho) hb
  have g : ∀ {z : PVal F} (j : String), "selection" ≠ j → Dict.get? (Dict.set t "selection" z) j = Dict.get? t j :=
    fun j hj => Dict.get?_set_ne _ _ hj
  rw [onEntry_outcome, loadEntry_outcome R C n _ (Dict.nodup_keys_set _ _ _ hn),
    exc_bind ((lookup_congr (g _ (by decide))).trans h1), exc_bind ((lookup_congr (g _ (by decide))).trans h2)]
  unfold finishEntry
  rw [g "secondary" (by decide), g "init variables" (by decide), exc_bind h3, exc_bind h4, exc_bind h5, exc_bind h6,
    leftOver_selection t _ hn, Dict.get?_set_self]
  refine (exc_bind h7).trans ?_
  exact exc_error hbad

/-! ### Unknown secondaries -/

theorem link_error {objs : Dict (CSampler F)} {p s : String} (h : link objs p s = .error er) : er = .key := by
  unfold link lookup at h
  cases h1 : Dict.get? objs p with
  | none => rw [h1] at h; cases h; rfl
  | some a =>
    cases h2 : Dict.get? objs s with
    | none => rw [h1, h2] at h; cases h; rfl
    | some b => rw [h1, h2] at h; cases h

theorem linkAll_error {p : String} {l : List (Option String)} {objs : Dict (CSampler F)}
    (h : linkAll p l objs = .error er) : er = .key := by
  induction l generalizing objs with
  | nil => cases h
  | cons x l ih =>
    cases x with
    | none => cases h
    | some s =>
      simp only [linkAll] at h
      cases hl : link objs p s with
      | error e => rw [hl] at h; cases h; exact link_error hl
      | ok o => rw [hl] at h; exact ih h

theorem linkEntries_error {l : List (String × List (Option String))} {objs : Dict (CSampler F)}
    (h : linkEntries l objs = .error er) : er = .key := by
  induction l generalizing objs with
  | nil => cases h
  | cons x l ih =>
    obtain ⟨p, l'⟩ := x
    simp only [linkEntries] at h
    cases hl : linkAll p l' objs with
    | error e => rw [hl] at h; cases h; exact linkAll_error hl
    | ok o => rw [hl] at h; exact ih h

theorem loadEntries_replaced {a b : Dict (PVal F)} {n : String} {v v' : PVal F}
    {r : CSampler F × Option (List (Option String))}
    (h : ∃ rs, (loadEntries R C (a ++ (n, v) :: b)).1 = .ok rs)
    (hv : (onEntry R C n v').1 = .ok r) :
    ∃ rs, (loadEntries R C (a ++ (n, v') :: b)).1 = .ok rs ∧ (n, r) ∈ rs := by
  induction a with
  | nil =>
    obtain ⟨rs, h⟩ := h
    simp only [List.nil_append, loadEntries] at h ⊢
    rcases ho : onEntry R C n v with ⟨r0 | r0, w⟩
    · rw [ho] at h; cases h
    · rw [ho] at h
      simp only at h
      rcases hl : loadEntries R C b with ⟨r1 | r1, w1⟩
      · rw [hl] at h; cases h
      · rcases ho' : onEntry R C n v' with ⟨r2, w2⟩
        rw [ho'] at hv
        simp only at hv
        subst hv
        exact ⟨_, rfl, by simp⟩
  | cons q a ih =>
    obtain ⟨m, w⟩ := q
    obtain ⟨rs, h⟩ := h
    simp only [List.cons_append, loadEntries] at h ⊢
    rcases ho : onEntry R C m w with ⟨r0 | r0, w'⟩
    · rw [ho] at h; cases h
    · rw [ho] at h
      simp only at h ⊢
      rcases hl : loadEntries R C (a ++ (n, v) :: b) with ⟨r1 | r1, w1⟩
      · rw [hl] at h; cases h
      · obtain ⟨rs', g1, g2⟩ := ih ⟨r1, by rw [hl]⟩
        rcases hl' : loadEntries R C (a ++ (n, v') :: b) with ⟨r2 | r2, w2⟩
        · rw [hl'] at g1; cases g1
        · rw [hl'] at g1
          cases g1
          exact ⟨_, rfl, by simp [g2]⟩

theorem secNames_strs (l : List String) :
    secNames (F := F) (.list (l.map .str)) = .ok (l.map some) := by
  unfold secNames
  simp only
  induction l with
  | nil => rfl
  | cons s l ih =>
    rw [List.map_cons, List.mapM_cons, ih]
    rfl

theorem active_some (l : List String) : active (l.map some) = l := by
  induction l with
  | nil => rfl
  | cons s l ih => simp [active, ih]

/-- **C86** (secondaries): a sampler that names a secondary that is not in the configuration is refused with
`KeyError`. -/
theorem C86_secondary {a b t : Dict (PVal F)} {n s : String} {l : List String} (h : fromDict R C d = .ok y e)
    (hs : Dict.get? d "auxiliary samplers" = some (.dict (a ++ (n, .dict t) :: b)))
    (hc : Spec.EntryChanged d d' "auxiliary samplers"
      (some (.dict (a ++ (n, .dict (Dict.set t "secondary" (.list (l.map .str)))) :: b))))
    (hn : (Dict.keys t).Nodup) (hl : s ∈ l) (hm : s ∉ Dict.keys (a ++ (n, PVal.dict t) :: b)) :
    outcome (fromDict R C d') = .error .key := by
  obtain ⟨y0, rs, hy, hrs, -⟩ := entries_ok h hs
  obtain ⟨r, hr⟩ := onEntry_ok_of h hs
  have g : ∀ j, "secondary" ≠ j → Dict.get? (Dict.set t "secondary" (.list (l.map .str))) j = Dict.get? t j :=
    fun j hj => Dict.get?_set_ne _ _ hj
  have hr' : ∃ c, (onEntry R C n (.dict (Dict.set t "secondary" (.list (l.map .str))))).1 =
      .ok (c, some (l.map some)) := by
    rw [onEntry_outcome, loadEntry_outcome R C n t hn] at hr
    obtain ⟨ty, h1, hr⟩ := exc_inv hr
    obtain ⟨ob, h2, hr⟩ := exc_inv hr
    unfold finishEntry at hr
    obtain ⟨sec, h3, hr⟩ := exc_inv hr
    obtain ⟨ini, h4, hr⟩ := exc_inv hr
    obtain ⟨cls, h5, hr⟩ := exc_inv hr
    obtain ⟨c, h6, hr⟩ := exc_inv hr
    obtain ⟨o, h7, hr⟩ := exc_inv hr
    have hsec : secNamesOpt (some (PVal.list (F := F) (l.map .str))) = .ok (some (l.map some)) := by
      unfold secNamesOpt
      exact (exc_bind (secNames_strs l)).trans rfl
    rw [onEntry_outcome, loadEntry_outcome R C n _ (Dict.nodup_keys_set _ _ _ hn),
      exc_bind ((lookup_congr (g _ (by decide))).trans h1), exc_bind ((lookup_congr (g _ (by decide))).trans h2)]
    unfold finishEntry
    rw [Dict.get?_set_self, g "selection" (by decide), g "init variables" (by decide), exc_bind hsec, exc_bind h4,
      exc_bind h5, exc_bind h6, leftOver_secondary t _ hn]
    cases hsel : Dict.get? t "selection" with
    | none => exact ⟨_, (exc_bind h7).trans rfl⟩
    | some v =>
      rw [hsel] at hr
      obtain ⟨s', h8, hr⟩ := exc_inv hr
      cases s' with
      | none => exact ⟨_, (exc_bind h7).trans ((exc_bind h8).trans rfl)⟩
      | some s' => exact ⟨_, (exc_bind h7).trans ((exc_bind h8).trans rfl)⟩
  obtain ⟨c, hr'⟩ := hr'
  obtain ⟨rs', g1, g2⟩ := loadEntries_replaced ⟨rs, hrs⟩ hr'
  have hkeys := ((loadEntries_iff R C _).2 rs' g1).1
  have hat : attach R y0 rs' = .error .key := by
    unfold attach
    simp only
    rcases hle : linkEntries (rs'.filterMap fun p => p.2.2.map fun l => (p.1, l))
      (rs'.map fun p => (p.1, p.2.1)) with er | o
    · rw [exc_error hle, linkEntries_error hle]
    · exfalso
      have := (linkEntries_spec _ _).1.1 ⟨o, hle⟩ n (l.map some)
        (List.mem_filterMap.2 ⟨_, g2, rfl⟩) s (by rw [active_some]; exact hl)
      refine hm ?_
      have h2 := this.2
      simp only [Dict.keys, List.map_map, List.map_append, List.map_cons] at h2 hkeys ⊢
      rw [← hkeys]
      exact h2
  rw [fromDict_eq]
  unfold fromDictD
  rw [loadHead_congr R C d d' fun j hj => hc.others j hj, hy, hc.here]
  simp only [PVal.items]
  rw [g1]
  simp only
  rw [hat]
  rfl

/-! ### Examples -/

namespace ConfigErrorExample

open ConfigExample

theorem changed_set {α : Type} (d : Dict α) (k : String) (v : α) : Spec.EntryChanged d (Dict.set d k v) k (some v) :=
  ⟨Dict.get?_set_self .., fun _ hj => Dict.get?_set_ne _ _ (Ne.symm hj)⟩

theorem changed_erase {α : Type} (d : Dict α) (k : String) (hn : (Dict.keys d).Nodup) :
    Spec.EntryChanged d (Dict.erase d k) k none :=
  ⟨by rw [get?_erase d hn]; simp, fun j hj => by rw [get?_erase d hn]; simp [Ne.symm hj]⟩

/-- A configuration with three samplers. -/
abbrev good : Dict (PVal Int) := conf sfr

theorem good_loads : ∃ y e, fromDict reg' conv good = .ok y e := ⟨_, _, rfl⟩

/-- The entries of the samplers. -/
def es1 : Dict (PVal Int) := [("type", .str "NormalAuxSampler"), ("observed", .bool true), ("mu", .int 3),
  ("tau", .int 4), ("secondary", .list [.str "s"])]
def es3 : Dict (PVal Int) := [
  ("s", .dict [("type", .str "NormalAuxSampler"), ("observed", .bool false)]),
  ("a", .dict [("type", .str "NormalAuxSampler"), ("observed", .bool true),
    ("selection", .dict [("LowerBound", .dict [("boundary", .int 7)])])])]

theorem good_samplers :
    Dict.get? good "auxiliary samplers" = some (.dict ([] ++ ("x", .dict es1) :: es3)) := rfl

/-- The configuration with another entry for `x`. -/
def withX (t : PVal Int) : Dict (PVal Int) :=
  Dict.set good "auxiliary samplers" (.dict ([] ++ ("x", t) :: es3))

example : fromDict reg' conv (Dict.erase good "seed") = .error .key (Dict.erase good "seed") := by
  obtain ⟨y, e, h⟩ := good_loads
  exact C86_missing h (.inr rfl) (changed_erase _ _ (by decide))

/-- A misspelt class, an empty section, a list of selections, a luminosity class for the positions. -/
example : outcome (fromDict reg' conv (Dict.set good "spatial distribution" (.dict [("SFR", .dict [])]))) = .error .key ∧
    outcome (fromDict reg' conv (Dict.set good "spatial distribution" (.dict []))) = .error .index ∧
    outcome (fromDict reg' conv (Dict.set good "flux selection" (.list []))) = .error .attribute ∧
    outcome (fromDict reg' conv (Dict.set good "seed" (.str "one"))) = .error .value ∧
    outcome (fromDict reg' conv (Dict.set good "luminosity distribution" sfr)) = .error .runtime ∧
    outcome (fromDict reg' conv (Dict.set good "spatial distribution"
      (.dict [("mySFR", .dict [("a", .int 2), ("r0", .int (-5))]), ("is_rate", .bool true)]))) = .error .runtime ∧
    outcome (fromDict reg' conv (Dict.set good "spatial distribution"
      (.dict [("mySFR", .dict [("a", .int 2), ("r0", .int 5)])]))) = .error .key := by
  obtain ⟨y, e, h⟩ := good_loads
  refine ⟨?_, ?_, ?_, ?_, ?_, ?_, ?_⟩
  · rw [C86_distribution h (k := "spatial distribution") (by decide) (changed_set _ _ _)
      (.unknown _ "SFR" ⟨_, _, rfl⟩ (fun ⟨k, hk⟩ => by cases hk))]; rfl
  · rw [C86_distribution h (k := "spatial distribution") (by decide) (changed_set _ _ _) .empty]; rfl
  · rw [C86_selection h (k := "flux selection") (by decide) (changed_set _ _ _) (by rintro ⟨⟩)
      (.shape _ (by rintro ⟨d, hd⟩; cases hd))]; rfl
  · rw [C86_seed h (changed_set _ _ _) (.str _ (by rintro ⟨i, hi⟩; cases hi))]; rfl
  · rw [C86_no_luminosity h rfl ⟨_, _, rfl⟩ rfl rfl (changed_set _ _ _)]; rfl
  · exact congrArg outcome (C86_parameter (v' := .int (-5)) (er := .runtime) h (k := "spatial distribution") (by decide)
      (a := [("a", .int 2)]) (n := "r0") (b := []) rfl rfl rfl (changed_set _ _ _)
      (.inr ⟨rfl, rfl, -5, rfl, .inl ⟨0, rfl, by decide⟩⟩))
  · rw [C86_rate (rest' := []) h rfl rfl rfl (changed_set _ _ _) rfl]; rfl

/-- An entry that is a string, one without a type, one with an unknown type, one with an empty selection,
one that names a missing secondary. -/
example : outcome (fromDict reg' conv (withX (.str "NormalAuxSampler"))) = .error .attribute ∧
    outcome (fromDict reg' conv (withX (.dict [("observed", .bool true)]))) = .error .key ∧
    outcome (fromDict reg' conv (withX (.dict (Dict.set es1 "type" (.str "Normal"))))) = .error .key ∧
    outcome (fromDict reg' conv (withX (.dict (Dict.set es1 "selection" (.dict []))))) = .error .index ∧
    outcome (fromDict reg' conv (withX (.dict (Dict.set es1 "init variables" (.int 1))))) = .error .type ∧
    outcome (fromDict reg' conv (withX (.dict (Dict.set es1 "secondary" (.list (["s", "z"].map .str)))))) =
      .error .key := by
  obtain ⟨y, e, h⟩ := good_loads
  refine ⟨?_, ?_, ?_, ?_, ?_, ?_⟩
  · exact C86_entry h good_samplers (changed_set _ _ _) (by rintro ⟨d, hd⟩; cases hd)
  · exact C86_entry_keys h good_samplers (changed_set _ _ _) (by decide) (.inl rfl)
  · exact C86_type h good_samplers (changed_set _ _ _) (by decide) (by decide) (changed_set _ _ _)
      (.inl ⟨rfl, fun s hs => by cases hs; rfl⟩)
  · exact C86_sampler_selection h good_samplers (changed_set _ _ _) (by decide) (by rintro ⟨⟩) .empty
  · exact C86_init h good_samplers (changed_set _ _ _) (by decide) (by decide) (changed_set _ _ _)
      (by rintro ⟨d, hd⟩; cases hd) (by rintro ⟨⟩)
  · exact C86_secondary h good_samplers (changed_set _ _ _) (by decide) (s := "z") (by decide) (by decide)

/-- Parameters of a sampler, of the selection of a sampler and of a selection by flux. -/
example : outcome (fromDict reg' conv (withX (.dict (Dict.set es1 "mu" (.str "three"))))) = .error .value ∧
    outcome (fromDict reg' conv (withX (.dict (Dict.set es1 "tau" .none)))) = .error .type ∧
    outcome (fromDict reg' conv (Dict.set good "auxiliary samplers" (.dict ([("x", .dict es1),
      ("s", .dict [("type", .str "NormalAuxSampler"), ("observed", .bool false)])] ++
      ("a", .dict [("type", .str "NormalAuxSampler"), ("observed", .bool true),
        ("selection", .dict [("LowerBound", .dict [("boundary", .list [])])])]) :: [])))) = .error .type ∧
    outcome (fromDict reg' conv (Dict.set (Dict.set good "flux selection"
        (.dict [("LowerBound", .dict [("boundary", .int 7)])])) "flux selection"
        (.dict [("LowerBound", .dict [("boundary", .str "seven")])]))) = .error .value := by
  obtain ⟨y, e, h⟩ := good_loads
  refine ⟨?_, ?_, ?_, ?_⟩
  · exact C86_sampler_parameter h good_samplers (changed_set _ _ _) (by decide) (by decide) rfl rfl rfl
      (.inl (.str _ (by rintro ⟨i, hi⟩; cases hi)))
  · exact C86_sampler_parameter h good_samplers (changed_set _ _ _) (by decide) (by decide) rfl rfl rfl (.inl .none)
  · exact C86_sampler_selection_parameter (a := [("x", .dict es1),
        ("s", .dict [("type", .str "NormalAuxSampler"), ("observed", .bool false)])]) (pa := []) (pb := [])
      (t := [("type", .str "NormalAuxSampler"), ("observed", .bool true),
        ("selection", .dict [("LowerBound", .dict [("boundary", .int 7)])])]) h rfl rfl
      (changed_set _ _ _) (by decide) rfl rfl (by decide) (.inl (.list _))
  · have h' : ∃ y e, fromDict reg' conv (Dict.set good "flux selection"
        (.dict [("LowerBound", .dict [("boundary", .int 7)])])) = .ok y e := ⟨_, _, rfl⟩
    obtain ⟨y, e, h'⟩ := h'
    exact congrArg outcome (C86_selection_parameter (k := "flux selection") (a := []) (b := []) h' (by decide)
      (Dict.get?_set_self ..) rfl rfl (changed_set _ _ _) (.inl (.str "seven" (by rintro ⟨i, hi⟩; cases hi))))

end ConfigErrorExample

end Popsynth
