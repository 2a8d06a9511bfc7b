import Verif.Lemmas.SurveyCore
import Verif.Lemmas.SurveyAux

/-!
# Attached samplers with secondaries, one after the other
-/

set_option autoImplicit false
set_option linter.unusedSectionVars false

namespace Popsynth
open Spec

variable {F G : Type} [LE F] [DecidableLE F] [OfNat F 0] [OfNat F 1]

theorem sameLinks_refl (h : Heap F G) : SameLinks h h := fun _ => ⟨rfl, rfl, rfl, rfl⟩

theorem sameLinks_trans {h h1 h2 : Heap F G} (a : SameLinks h h1) (b : SameLinks h1 h2) :
    SameLinks h h2 := fun i =>
  ⟨(b i).1.trans (a i).1, (b i).2.1.trans (a i).2.1, (b i).2.2.1.trans (a i).2.2.1,
    (b i).2.2.2.trans (a i).2.2.2⟩

theorem changed_nil (n : Nat) (h : Heap F G) : Changed n h h [] :=
  ⟨fun _ _ => rfl, fun _ _ => rfl, sameLinks_refl h, fun _ hd => by cases hd⟩

theorem changed_trans {n : Nat} {h h1 h2 : Heap F G} {D E : List (Gain F)} (a : Changed n h h1 D)
    (b : Changed n h1 h2 E) (hd : ((D ++ E).map Gain.sel).Nodup) : Changed n h h2 (D ++ E) := by
  rw [List.map_append, List.nodup_append] at hd
  have hne : ∀ d ∈ D, d.sel ∉ E.map Gain.sel := fun d hd' hm =>
    hd.2.2 _ (List.mem_map_of_mem hd') _ hm rfl
  have hne' : ∀ d ∈ E, d.sel ∉ D.map Gain.sel := fun d hd' hm =>
    hd.2.2 _ hm _ (List.mem_map_of_mem hd') rfl
  refine ⟨?_, ?_, sameLinks_trans a.links b.links, ?_⟩
  · intro j hj
    rw [List.map_append, List.mem_append, not_or] at hj
    rw [b.others j hj.2, a.others j hj.1]
  · intro q hq
    rw [List.map_append, List.mem_append, not_or] at hq
    rw [b.selectors q hq.2, a.selectors q hq.1]
  · intro d hdm
    rcases List.mem_append.1 hdm with hd' | hd'
    · obtain ⟨c1, c2, c3⟩ := a.gained d hd'
      rw [b.selectors _ (hne d hd')]
      exact ⟨c1, c2, c3⟩
    · obtain ⟨c1, c2, c3⟩ := b.gained d hd'
      rw [a.selectors _ (hne' d hd')] at c2 c3
      exact ⟨c1, c2, c3⟩

/-- One attached sampler with its secondaries has been drawn. -/
structure Acted (e : SurveyEnv F G) (n : Nat) (ls : List F) (v : Spatial F) (h : Heap F G) (id : Nat)
    (D : List (Gain F)) (h' : Heap F G) : Prop where
  run : (prepareAux ls v id >>= fun _ => samplerDraw e.world e.frames id n) h = .ok () h'
  latent : lenIs (h'.samplers id).trueVals n = true
  obs : lenIs (h'.samplers id).obsVals n = true
  stored : secProps h' e.frames id = .ok (D.map Gain.stored)
  changed : Changed n h h' D

/-- Attached samplers have been drawn one after the other. -/
inductive Acts (e : SurveyEnv F G) (n : Nat) (ls : List F) (v : Spatial F) :
    Heap F G → List ((String × Nat) × List (Gain F)) → Heap F G → Prop
  | nil (h : Heap F G) : Acts e n ls v h [] h
  | cons {h h1 h2 : Heap F G} {kv : String × Nat} {D : List (Gain F)}
      {l : List ((String × Nat) × List (Gain F))} : Acted e n ls v h kv.2 D h1 →
      Acts e n ls v h1 l h2 → Acts e n ls v h ((kv, D) :: l) h2

variable {e : SurveyEnv F G} {n : Nat} {ls : List F} {v : Spatial F}

theorem troupe_foldl_set_append (r : Storage F) : ∀ q : Storage F, (q.map Prod.fst ++ r.map Prod.fst).Nodup →
    r.foldl (fun acc p => Dict.set acc p.1 p.2) q = q ++ r := by
  induction r with
  | nil => intro q _; simp
  | cons p r ih =>
    intro q hn
    have hk : p.1 ∉ q.map Prod.fst := by
      rw [List.nodup_append] at hn
      intro hm
      exact hn.2.2 _ hm p.1 (by simp) rfl
    rw [List.foldl_cons, Dict.set_append_of_not_mem _ _ _ hk, ih]
    · simp
    · rw [List.map_append, List.append_assoc]; simpa using hn

theorem storage_isEmpty {q : Storage F} (h : ∀ p ∈ q, p.1 ≠ "") (hq : q ≠ []) :
    Storage.isEmpty q = false := by
  cases q with
  | nil => exact absurd rfl hq
  | cons p q => simp [Storage.isEmpty, h p (by simp)]

theorem storage_add_list {q r : Storage F} (h1 : ∀ p ∈ q, p.1 ≠ "") (h2 : ∀ p ∈ r, p.1 ≠ "")
    (hn : (q.map Prod.fst ++ r.map Prod.fst).Nodup) : Storage.add q r = q ++ r := by
  by_cases hq : q = []
  · subst hq; simp [Storage.add, Storage.isEmpty]
  by_cases hr : r = []
  · subst hr
    unfold Storage.add
    rw [storage_isEmpty h1 hq]
    simp [Storage.isEmpty]
  unfold Storage.add
  rw [storage_isEmpty h1 hq, storage_isEmpty h2 hr]
  simp only [Bool.false_eq_true, if_false]
  exact troupe_foldl_set_append r q hn

theorem stored_keys (D : List (Gain F)) : (D.map Gain.stored).map Prod.fst = D.map Gain.key := by
  rw [List.map_map]; rfl

theorem auxStep_acted {kv : String × Nat} {t : SurvSt F G} {h1 : Heap F G} {D : List (Gain F)}
    (hp : Acted e n ls v t.heap kv.2 D h1) (hs : (t.heap.samplers kv.2).isSecondary = false)
    {loc : Loc F} (hk : ∀ d ∈ D, d.key ≠ "") (hq1 : ∀ p ∈ loc.auxq, p.1 ≠ "")
    (hq2 : (loc.auxq.map Prod.fst ++ D.map Gain.key).Nodup) :
    ∃ loc', auxStep e n ls v loc kv t = .ok loc' { t with heap := h1 } ∧
      loc'.auxq = loc.auxq ++ D.map Gain.stored ∧ loc'.prob = loc.prob := by
  obtain ⟨_, h0, r1, r2⟩ := (bind_ok_iff _ _ _ _ _).1 hp.run
  have e1 := onHeap_of_ok (s := t) r1
  have e2 := onHeap_of_ok (s := { t with heap := h0 }) r2
  refine ⟨{ loc with
    auxq := Storage.add loc.auxq (D.map Gain.stored)
    truth := secTruths h1 kv.2
      (Dict.set loc.truth (h1.samplers kv.2).name (truthOf (h1.samplers kv.2).params)) }, ?_,
    storage_add_list hq1 (by
      intro p hp
      obtain ⟨d, hd, rfl⟩ := List.mem_map.1 hp
      exact hk d hd) (by rw [stored_keys]; exact hq2), rfl⟩
  unfold auxStep
  rw [bind_of_ok (get_apply _)]
  simp only [hs, Bool.not_false, pyAssert, if_true]
  refine (bind_of_ok (pure_apply _ _)).trans ?_
  rw [bind_of_ok e1, bind_of_ok e2, bind_of_ok (get_apply _)]
  simp only [hp.latent, hp.obs, if_true]
  refine (bind_of_ok (pure_apply _ _)).trans ((bind_of_ok (pure_apply _ _)).trans ?_)
  exact (bind_of_ok (liftE_of_ok _ hp.stored)).trans rfl

/-- All that is given. -/
def allGains (l : List ((String × Nat) × List (Gain F))) : List (Gain F) :=
  (l.map Prod.snd).flatten

theorem acts_fold {h h' : Heap F G} {l : List ((String × Nat) × List (Gain F))}
    (ht : Acts e n ls v h l h') :
    ∀ (t : SurvSt F G) (loc : Loc F), t.heap = h →
      (∀ p ∈ l, (h.samplers p.1.2).isSecondary = false) →
      (∀ d ∈ allGains l, d.key ≠ "") → (∀ p ∈ loc.auxq, p.1 ≠ "") →
      (loc.auxq.map Prod.fst ++ (allGains l).map Gain.key).Nodup →
      ∃ loc', foldPy (l.map Prod.fst) loc (auxStep e n ls v) t =
        .ok loc' { t with heap := h' } ∧ loc'.auxq = loc.auxq ++ (allGains l).map Gain.stored ∧
        loc'.prob = loc.prob := by
  induction ht with
  | nil h =>
    intro t loc hh _ _ _ _
    exact ⟨loc, by rw [← hh]; rfl, by simp [allGains], rfl⟩
  | @cons h h1 h2 kv D l ha _ ih =>
    intro t loc hh hs hk hq1 hq2
    subst hh
    have hall : allGains ((kv, D) :: l) = D ++ allGains l := by simp [allGains]
    rw [hall] at hk hq2
    rw [List.map_append, ← List.append_assoc] at hq2
    obtain ⟨loc1, a1, a2, a3⟩ := auxStep_acted ha (hs (kv, D) (by simp)) (loc := loc)
      (fun d hd => hk d (by simp [hd])) hq1 (List.nodup_append.1 hq2).1
    obtain ⟨loc2, b1, b2, b3⟩ := ih { t with heap := h1 } loc1 rfl
      (fun p hp => (ha.changed.links _).2.1.trans (hs p (by simp [hp])))
      (fun d hd => hk d (by simp [hd]))
      (by
        intro p hpm
        rw [a2, List.mem_append] at hpm
        rcases hpm with hpm | hpm
        · exact hq1 p hpm
        · obtain ⟨d, hd, rfl⟩ := List.mem_map.1 hpm
          exact hk d (by simp [hd]))
      (by rw [a2, List.map_append, stored_keys]; exact hq2)
    refine ⟨loc2, ?_, by rw [b2, a2, hall]; simp, by rw [b3, a3]⟩
    rw [List.map_cons, foldPy_cons, bind_of_ok a1]
    exact b1

theorem acts_changed {h h' : Heap F G} {l : List ((String × Nat) × List (Gain F))}
    (ht : Acts e n ls v h l h') : ((allGains l).map Gain.sel).Nodup → Changed n h h' (allGains l) := by
  induction ht with
  | nil h => exact fun _ => changed_nil n h
  | @cons h h1 h2 kv D l ha _ ih =>
    intro hn
    have hall : allGains ((kv, D) :: l) = D ++ allGains l := by simp [allGains]
    rw [hall] at hn ⊢
    refine changed_trans ha.changed (ih ?_) hn
    rw [List.map_append, List.nodup_append] at hn
    exact hn.2.1

end Popsynth
