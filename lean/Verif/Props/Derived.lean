import Verif.Model.Derived
import Verif.Props.SimVar
import Mathlib.Order.Defs.LinearOrder

/-!
# Arrays derived from simulated variables (C89)
-/

set_option autoImplicit false
set_option linter.unusedSectionVars false

namespace Popsynth
open Spec

variable {F : Type}

/-- The objects of a simulated variable: observed value, latent value, selected or not. -/
def Spec.triples (x : SVar F) : List (F × F × Bool) := x.obs.zip (x.latent.zip x.sel)

/-- Every entry of `y` is an object of `x`, with its own latent value and its own selection. -/
def Spec.Belongs (y x : SVar F) : Prop := Built y ∧ ∀ t ∈ triples y, t ∈ triples x

theorem triples_get (x : SVar F) (i : Nat) (t : F × F × Bool) :
    (triples x)[i]? = some t ↔ x.obs[i]? = some t.1 ∧ x.latent[i]? = some t.2.1 ∧ x.sel[i]? = some t.2.2 := by
  unfold triples
  rw [List.getElem?_zip_eq_some, List.getElem?_zip_eq_some]

theorem mem_triples (x : SVar F) (t : F × F × Bool) :
    t ∈ triples x ↔ ∃ i : Nat, x.obs[i]? = some t.1 ∧ x.latent[i]? = some t.2.1 ∧ x.sel[i]? = some t.2.2 := by
  rw [List.mem_iff_getElem?]
  exact exists_congr fun i => triples_get x i t

/-- **C89** (indexing): what `x[…]` returns consists of objects of `x`. -/
theorem C89_getitem (x y : SVar F) (hx : Built x) (i : Idx) (h : x.getItem i = .ok (.var y)) :
    Belongs y x := by
  obtain ⟨hb, ps, -, ⟨a1, a2⟩, ⟨-, b2⟩, ⟨-, c2⟩, -⟩ := C34_getitem_aligned x y hx i h
  refine ⟨hb, fun t ht => ?_⟩
  obtain ⟨k, h1, h2, h3⟩ := (mem_triples y t).1 ht
  have hk : k < ps.length := by
    have := (List.getElem?_eq_some_iff.1 h1).1
    omega
  have hp : ps[k]? = some ps[k] := List.getElem?_eq_getElem hk
  refine (mem_triples x t).2 ⟨ps[k], ?_, ?_, ?_⟩
  · rw [← (a2 _ _ hp).1]; exact h1
  · rw [← (b2 _ _ hp).1]; exact h2
  · rw [← (c2 _ _ hp).1]; exact h3

/-- **C89** (copies): copies and views are the same variable. -/
theorem C89_copy (x : SVar F) :
    x.toAVar.copy = x.toAVar ∧ x.toAVar.copy.attrs = .ok x ∧
      x.toAVar.copy.selected = x.selected ∧ x.toAVar.copy.nonSelected = x.nonSelected :=
  ⟨rfl, rfl, rfl, rfl⟩

/-- **C89** (other values): an array that keeps latent values and selection of `x` but has other
observed values does not consist of objects of `x`, if the latent values are all different. -/
theorem C89_values (x : SVar F) (hx : Built x) (hn : x.latent.Nodup) (obs : List F) :
    Belongs { x with obs := obs } x ↔ obs = x.obs := by
  constructor
  · rintro ⟨⟨h1, -⟩, h2⟩
    simp only at h1
    refine List.ext_getElem (by rw [← h1, hx.1]) fun i hi hj => ?_
    have hl : i < x.latent.length := by omega
    have hs : i < x.sel.length := by rw [hx.2]; exact hj
    have hm := h2 (obs[i], x.latent[i], x.sel[i]) ((mem_triples _ _).2 ⟨i,
      List.getElem?_eq_getElem hi, List.getElem?_eq_getElem hl, List.getElem?_eq_getElem hs⟩)
    obtain ⟨j, k1, k2, -⟩ := (mem_triples x _).1 hm
    obtain ⟨hj2, k2⟩ := List.getElem?_eq_some_iff.1 k2
    have : j = i := (List.getElem_inj hn).1 k2
    subst this
    obtain ⟨_, k1⟩ := List.getElem?_eq_some_iff.1 k1
    exact k1.symm
  · rintro rfl
    exact ⟨hx, fun t ht => ht⟩

/-- **C89** (sorting): `np.sort(x)` consists of objects of `x` only if `x` was sorted already. -/
theorem C89_sort_iff [LinearOrder F] (x : SVar F) (hx : Built x) (hn : x.latent.Nodup) :
    ∃ y, x.toAVar.sort.attrs = .ok y ∧ y.obs.Pairwise (· ≤ ·) ∧ y.obs.Perm x.obs ∧
      (Belongs y x ↔ x.obs.Pairwise (· ≤ ·)) := by
  have hs : (x.obs.mergeSort fun a b => decide (a ≤ b)).Pairwise (· ≤ ·) := by
    have := List.pairwise_mergeSort (le := fun a b : F => decide (a ≤ b))
      (fun a b c h1 h2 => by simp only [decide_eq_true_eq] at *; exact le_trans h1 h2)
      (fun a b => by simp only [Bool.or_eq_true, decide_eq_true_eq]; exact le_total a b) x.obs
    exact this.imp fun h => of_decide_eq_true h
  refine ⟨{ x with obs := x.obs.mergeSort fun a b => decide (a ≤ b) }, rfl, hs,
    List.mergeSort_perm _ _, ?_⟩
  rw [C89_values x hx hn]
  constructor
  · intro h; rw [← h]; exact hs
  · intro h
    exact List.mergeSort_of_pairwise (h.imp fun h => decide_eq_true h)

/-- A boolean selection of another length than the array. -/
theorem wrong_length (x : SVar F) (hd : x.selDt = .bool) (hl : x.sel.length ≠ x.obs.length) :
    x.selected = .error .index ∧ x.nonSelected = .error .index := by
  constructor
  · simp only [SVar.selected, hd, selPositions, maskPositions, if_neg hl]; rfl
  · have hl' : (x.sel.map not).length ≠ x.obs.length := by simpa using hl
    simp only [SVar.nonSelected, hd, nonSelPositions, maskPositions, if_neg hl']; rfl

/-- **C89** (taking entries): `x.take(l)` has the values at these positions, but consists of
objects of `x` only if it has the same values as `x`; with another number of entries `selected`
and `non_selected` raise `IndexError`. -/
theorem C89_take (x : SVar F) (hx : Built x) (hn : x.latent.Nodup) (hd : x.selDt = .bool)
    (l : List Int) (hl : ∀ i ∈ l, -(x.obs.length : Int) ≤ i ∧ i < x.obs.length) :
    ∃ a y, x.toAVar.take l = .ok a ∧ a.attrs = .ok y ∧ y.obs.length = l.length ∧
      (∀ (k : Nat) (i : Int), l[k]? = some i →
        y.obs[k]? = x.obs[(if i < 0 then i + (x.obs.length : Int) else i).toNat]?) ∧
      (Belongs y x ↔ y.obs = x.obs) ∧
      (l.length ≠ x.obs.length → a.selected = .error .index ∧ a.nonSelected = .error .index) := by
  have hp := (normIdxs_ok_iff x.obs.length l _).2 ⟨hl, rfl⟩
  have hlt := normIdxs_lt hp
  generalize hps : (l.map fun i : Int => (if i < 0 then i + (x.obs.length : Int) else i).toNat) = ps at hp hlt
  obtain ⟨t1, t2⟩ := takeAt_at x.obs ps hlt
  refine ⟨finalize (takeAt x.obs ps) x.dt (.var x.toAVar), { x with obs := takeAt x.obs ps }, ?_, rfl, ?_, ?_, ?_, ?_⟩
  · show (normIdxs x.obs.length l >>= _) = _
    rw [hp]; rfl
  · simpa [← hps] using t1
  · intro k i hk
    exact (t2 k _ (by simp [← hps, hk])).1
  · exact C89_values x hx hn _
  · intro hne
    exact wrong_length { x with obs := takeAt x.obs ps } hd (by
      show x.sel.length ≠ (takeAt x.obs ps).length
      rw [t1, hx.2, ← hps]; simpa using Ne.symm hne)

theorem flatMap_replicate_length (k : Nat) : ∀ l : List F,
    (l.flatMap fun v => List.replicate k v).length = k * l.length
  | [] => by simp
  | _ :: l => by simp [flatMap_replicate_length k l, Nat.mul_add, Nat.add_comm]

/-- **C89** (repeating): `x.repeat(k)` cannot be split into selected and non-selected entries. -/
theorem C89_repeat (x : SVar F) (hx : Built x) (hd : x.selDt = .bool) (k : Nat) (hk : k ≠ 1)
    (h0 : x.obs ≠ []) :
    (x.toAVar.repeatEach k).selected = .error .index ∧
      (x.toAVar.repeatEach k).nonSelected = .error .index := by
  refine wrong_length { x with obs := x.obs.flatMap fun v => List.replicate k v } hd ?_
  show x.sel.length ≠ (x.obs.flatMap fun v => List.replicate k v).length
  rw [flatMap_replicate_length, hx.2]
  have := List.length_pos_iff.2 h0
  intro h
  have h' : k * x.obs.length = 1 * x.obs.length := by omega
  exact hk (Nat.eq_of_mul_eq_mul_right this h')

/-- **C89** (violated): joined variables have no latent values and no selection. -/
theorem C89_violated_concatenate (xs : List (AVar F)) (dt : DType) :
    (concatenate xs dt).obs = xs.flatMap AVar.obs ∧
    (concatenate xs dt).latentValues = .error .attribute ∧
    (concatenate xs dt).selected = .error .attribute ∧
    (concatenate xs dt).nonSelected = .error .attribute :=
  ⟨rfl, rfl, rfl, rfl⟩

/-- **C89** (violated): a copy of joined variables has their values, its latent values are
`None`, and `selected` and `non_selected` raise another exception than before the copy. -/
theorem C89_violated_joined_copy (xs : List (AVar F)) (dt : DType) :
    (concatenate xs dt).copy.obs = xs.flatMap AVar.obs ∧
    (concatenate xs dt).copy.latentValues = .ok none ∧
    (concatenate xs dt).copy.selected = .error .type ∧
    (concatenate xs dt).copy.nonSelected = .error .type :=
  ⟨rfl, rfl, rfl, rfl⟩

/-- **C89** (plain arrays): a plain array viewed as a simulated variable has its values, but no
latent values; `selected` and `non_selected` raise `TypeError`, also for copies of it. -/
theorem C89_plain (a : List F) (dt : DType) :
    (viewPlain a dt).obs = a ∧ (viewPlain a dt).dt = dt ∧
    (viewPlain a dt).latentValues = .ok none ∧ (viewPlain a dt).selected = .error .type ∧
    (viewPlain a dt).nonSelected = .error .type ∧ (viewPlain a dt).copy.selected = .error .type ∧
    (viewPlain a dt).copy.obs = a :=
  ⟨rfl, rfl, rfl, rfl, rfl, rfl, rfl⟩

example : (concatenate [viewPlain [1, 2] .float, viewPlain [3] .float] .float).copy.latentValues = .ok none ∧
    (concatenate [viewPlain [1, 2] .float, viewPlain [3] .float] .float).copy.obs = [1, 2, 3] :=
  ⟨rfl, rfl⟩

/-- **C89** (violated): sorting gives objects the latent values and selections of others. -/
theorem C89_violated_sort : ∃ x y z : SVar Int, Built x ∧ x.toAVar.sort.attrs = .ok y ∧
    ¬ Belongs y x ∧ y.selected = .ok z ∧ triples z = [(1, 30, true)] ∧
    (1, 10, false) ∈ triples x ∧ (3, 30, true) ∈ triples x := by
  refine ⟨⟨[3, 1], .float, [30, 10], [true, false], .bool⟩, ⟨[1, 3], .float, [30, 10], [true, false], .bool⟩,
    ⟨[1], .float, [30], [true], .float⟩, ⟨rfl, rfl⟩, ?_, ?_, rfl, rfl, by decide, by decide⟩
  · simp [AVar.attrs, AVar.sort, AVar.copy, finalize, SVar.toAVar, OptAttr.orNone, List.mergeSort, List.merge, List.MergeSort.Internal.splitInTwo]
  rintro ⟨-, h⟩
  exact absurd (h (1, 30, true) (by decide)) (by decide)

example : (∃ y, SVar.getItem (⟨[3, 1, 2], .float, [30, 10, 20], [true, false, true], .bool⟩ : SVar Int)
      (.ints [1, 2, 0]) = .ok (.var y) ∧ triples y = [(1, 10, false), (2, 20, true), (3, 30, true)]) ∧
    (SVar.toAVar (⟨[3, 1, 2], .float, [30, 10, 20], [true, false, true], .bool⟩ : SVar Int)).sort.obs = [1, 2, 3] ∧
    ¬ Belongs ⟨[1, 2, 3], .float, [30, 10, 20], [true, false, true], .bool⟩
      (⟨[3, 1, 2], .float, [30, 10, 20], [true, false, true], .bool⟩ : SVar Int) := by
  refine ⟨⟨_, rfl, rfl⟩, by simp [AVar.sort, SVar.toAVar, List.mergeSort, List.merge, List.MergeSort.Internal.splitInTwo], ?_⟩
  rintro ⟨-, h⟩
  exact absurd (h (1, 30, true) (by decide)) (by decide)

end Popsynth
