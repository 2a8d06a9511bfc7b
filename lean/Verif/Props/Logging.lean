import Verif.Model.Logging
import Verif.Lemmas.Py

/-!
# C56 (logging modes)
-/

set_option autoImplicit false

namespace Popsynth

/-- The calls that switch the mode. -/
def Spec.IsSwitch : LogOp → Prop
  | .silenceLogs | .quietMode | .loudMode | .debugMode => True
  | _ => False

theorem stored_keep (o : LogOp) (h : ¬ Spec.IsSwitch o) (s : LogSt) :
    (endState (logOp o s)).usrStored = s.usrStored ∧
    (endState (logOp o s)).conStored = s.conStored := by
  cases o with
  | updateLevel l => cases l <;> exact ⟨rfl, rfl⟩
  | silenceLogs => exact (h trivial).elim
  | quietMode => exact (h trivial).elim
  | loudMode => exact (h trivial).elim
  | debugMode => exact (h trivial).elim
  | _ => exact ⟨rfl, rfl⟩

theorem stored_run (ops : List LogOp) (h : ∀ o ∈ ops, ¬ Spec.IsSwitch o) (s : LogSt) :
    (logRun ops s).usrStored = s.usrStored ∧ (logRun ops s).conStored = s.conStored := by
  unfold logRun
  induction ops generalizing s with
  | nil => exact ⟨rfl, rfl⟩
  | cons o ops ih =>
    rw [List.foldl_cons]
    have h1 := stored_keep o (h o (by simp)) s
    have h2 := ih (fun o ho => h o (by simp [ho])) (endState (logOp o s))
    exact ⟨h2.1.trans h1.1, h2.2.trans h1.2⟩

/-- **C56** (partial): in every history, `activate_logs()` sets the user and console levels
to what they were just before the last mode switch, whatever happened before it and
whatever was done since (level updates, warnings, progress bars, earlier calls of
`activate_logs`).  *Missing*: the developer log and the progress bars
(`C56_violated_dev`, `C56_violated_progress`). -/
theorem C56_activate_partial (before : List LogOp) (switch : LogOp) (after : List LogOp) (s : LogSt)
    (hs : Spec.IsSwitch switch) (ha : ∀ o ∈ after, ¬ Spec.IsSwitch o) :
    (logRun (before ++ switch :: after ++ [.activateLogs]) s).usr = (logRun before s).usr ∧
    (logRun (before ++ switch :: after ++ [.activateLogs]) s).con = (logRun before s).con := by
  have e : logRun (before ++ switch :: after ++ [.activateLogs]) s
      = endState (logOp .activateLogs (logRun after (endState (logOp switch (logRun before s))))) := by
    simp [logRun, List.foldl_append]
  rw [e]
  have h1 := stored_run after ha (endState (logOp switch (logRun before s)))
  have h2 : (endState (logOp switch (logRun before s))).usrStored = (logRun before s).usr ∧
      (endState (logOp switch (logRun before s))).conStored = (logRun before s).con := by
    cases switch with
    | silenceLogs => exact ⟨rfl, rfl⟩
    | quietMode => exact ⟨rfl, rfl⟩
    | loudMode => exact ⟨rfl, rfl⟩
    | debugMode => exact ⟨rfl, rfl⟩
    | _ => exact hs.elim
  exact ⟨h1.1.trans h2.1, h1.2.trans h2.2⟩

/-- Console at 30, debug mode, console set to 20, then reactivated: 30 again. -/
example : (logRun [.debugMode, .updateLevel (some 20), .activateLogs] (.init 25 30)).con = 30 :=
  (C56_activate_partial [] .debugMode [.updateLevel (some 20)] _ trivial
    (by intro o ho; simp at ho; subst ho; exact id)).2

/-- A history without a mode switch: `activate_logs()` restores the levels at import. -/
theorem C56_activate_noSwitch (ops : List LogOp) (u c : Nat) (h : ∀ o ∈ ops, ¬ Spec.IsSwitch o) :
    (logRun (ops ++ [.activateLogs]) (.init u c)).usr = u ∧
    (logRun (ops ++ [.activateLogs]) (.init u c)).con = c := by
  have e : logRun (ops ++ [.activateLogs]) (.init u c)
      = endState (logOp .activateLogs (logRun ops (.init u c))) := by
    simp [logRun, List.foldl_append]
  rw [e]
  exact stored_run ops h (.init u c)

/-- **C56** (context manager): `with silence_console_log()` restores the console and user
levels on every exit, normal or by an exception, whatever the body does (including mode
switches and nested uses), and passes on the body's result or exception; everything else
is left as the body left it. -/
theorem C56_context {α : Type} (body : Py LogSt α) (s : LogSt) :
    (endState (silenceConsole body s)).con = s.con ∧
    (endState (silenceConsole body s)).usr = s.usr ∧
    outcome (silenceConsole body s) = outcome (body { s with con := 40, usr := 40 }) ∧
    { endState (silenceConsole body s) with con := 0, usr := 0 }
      = { endState (body { s with con := 40, usr := 40 }) with con := 0, usr := 0 } := by
  unfold silenceConsole
  have h40 : lvlError = 40 := rfl
  rw [h40]
  cases body { s with con := 40, usr := 40 } <;> exact ⟨rfl, rfl, rfl, rfl⟩

/-- A body that switches to quiet mode and raises. -/
example : (endState (silenceConsole (do logOp .quietMode; raise .user : Py LogSt Unit)
    (.init 25 30))).con = 30 := (C56_context _ _).1

/-- **C56** (partial, warnings): silencing warnings and activating them again is neutral if
they were not silenced before.  *Missing*: if they were (`C56_violated_warnings`). -/
theorem C56_warnings_partial (s : LogSt) (hu : warningFilter ∉ s.usrFilters)
    (hc : warningFilter ∉ s.conFilters) :
    logRun [.silenceWarnings, .activateWarnings] s = s := by
  have key : ∀ l : List Nat, warningFilter ∉ l →
      removeFilter warningFilter (addFilter warningFilter l) = l := by
    intro l hl
    unfold addFilter removeFilter
    rw [if_neg hl, if_pos (by simp), List.erase_append_right _ hl]
    simp
  show { s with usrFilters := removeFilter warningFilter (addFilter warningFilter s.usrFilters)
                conFilters := removeFilter warningFilter (addFilter warningFilter s.conFilters) } = s
  rw [key _ hu, key _ hc]

example : logRun [.silenceWarnings, .activateWarnings] (.init 1 2) = .init 1 2 :=
  C56_warnings_partial _ (by simp [LogSt.init]) (by simp [LogSt.init])

/-- **C56 is violated** for warnings that were silenced before: doing it again and undoing
it once activates them. -/
theorem C56_violated_warnings (s : LogSt) (hu : warningFilter ∈ s.usrFilters)
    (hn : s.usrFilters.Nodup) :
    warningFilter ∉ (logRun [.silenceWarnings, .activateWarnings] s).usrFilters := by
  show warningFilter ∉ removeFilter warningFilter (addFilter warningFilter s.usrFilters)
  unfold addFilter removeFilter
  rw [if_pos hu, if_pos hu]
  exact fun h => ((List.Nodup.mem_erase_iff hn).1 h).1 rfl

/-- **C56 is violated** for the progress bars: `quiet_mode()` turns them off and
`activate_logs()` does not turn them on again. -/
theorem C56_violated_progress (s : LogSt) :
    (logRun [.quietMode, .activateLogs] s).progress = false := rfl

/-- **C56 is violated** for the developer log: `activate_logs()` always sets it to `DEBUG`,
whatever its level was before the last mode switch, e.g. when the logs were silenced. -/
theorem C56_violated_dev (s : LogSt) :
    (logRun [.silenceLogs] s).dev = lvlCritical ∧
    (logRun [.silenceLogs, .loudMode, .activateLogs] s).dev = lvlDebug := ⟨rfl, rfl⟩

/-- Only the last switch can be undone: after silencing twice, `activate_logs()` leaves the
logs silenced. -/
theorem C56_violated_twice (s : LogSt) :
    (logRun [.silenceLogs, .silenceLogs, .activateLogs] s).usr = lvlCritical ∧
    (logRun [.silenceLogs, .silenceLogs, .activateLogs] s).con = lvlCritical := ⟨rfl, rfl⟩

/-! ### What is written -/

/-- The handlers asked for by the configuration. -/
def Spec.Wanted (c : LogSetup) : Sink → Prop
  | .dev => c.debug = true
  | .con => c.console = true
  | .usr => c.file = true

theorem addHandler_spec (k : Sink) (l : List Sink) (h : l.Nodup) :
    (addHandler k l).Nodup ∧ ∀ x, x ∈ addHandler k l ↔ x = k ∨ x ∈ l := by
  unfold addHandler
  split
  · next hk => exact ⟨h, fun x => ⟨Or.inr, fun hx => hx.elim (fun e => e ▸ hk) id⟩⟩
  · next hk =>
    refine ⟨List.nodup_append.2 ⟨h, by simp, ?_⟩, fun x => by simp [or_comm]⟩
    intro a ha b hb
    simp only [List.mem_singleton] at hb
    subst hb
    exact fun e => hk (e ▸ ha)

theorem setupLogger_spec (c : LogSetup) (l : List Sink) (h : l.Nodup) :
    (setupLogger c l).Nodup ∧ ∀ k, k ∈ setupLogger c l ↔ Spec.Wanted c k ∨ k ∈ l := by
  obtain ⟨d, e, f⟩ := c
  have h1 := addHandler_spec .dev l h
  cases d <;> cases e <;> cases f <;>
    simp only [setupLogger, Bool.false_eq_true, if_false, if_true] <;>
    first
    | (have h2 := addHandler_spec .con _ h1.1
       have h3 := addHandler_spec .usr _ h2.1
       refine ⟨h3.1, fun k => ?_⟩
       rw [h3.2, h2.2, h1.2]
       cases k <;> simp [Spec.Wanted])
    | (have h2 := addHandler_spec .con _ h1.1
       refine ⟨h2.1, fun k => ?_⟩
       rw [h2.2, h1.2]
       cases k <;> simp [Spec.Wanted])
    | (have h2 := addHandler_spec .usr _ h1.1
       refine ⟨h2.1, fun k => ?_⟩
       rw [h2.2, h1.2]
       cases k <;> simp [Spec.Wanted])
    | (refine ⟨h1.1, fun k => ?_⟩
       rw [h1.2]
       cases k <;> simp [Spec.Wanted])
    | (have h2 := addHandler_spec .con _ h
       have h3 := addHandler_spec .usr _ h2.1
       refine ⟨h3.1, fun k => ?_⟩
       rw [h3.2, h2.2]
       cases k <;> simp [Spec.Wanted])
    | (have h2 := addHandler_spec .con _ h
       refine ⟨h2.1, fun k => ?_⟩
       rw [h2.2]
       cases k <;> simp [Spec.Wanted])
    | (have h2 := addHandler_spec .usr _ h
       refine ⟨h2.1, fun k => ?_⟩
       rw [h2.2]
       cases k <;> simp [Spec.Wanted])
    | (refine ⟨h, fun k => ?_⟩
       cases k <;> simp [Spec.Wanted])

/-- **C56 (set up).** However often a logger is set up, it has exactly the handlers that the
configuration asks for, each once: no message is written twice to the same place. -/
theorem C56_setup (c : LogSetup) (n : Nat) (other : Nat → Nat → Bool) (s : LogSt) (lvl : Nat) :
    (Nat.repeat (setupLogger c) (n + 1) []).Nodup ∧
    (∀ k, k ∈ Nat.repeat (setupLogger c) (n + 1) [] ↔ Spec.Wanted c k) ∧
    (emit other (Nat.repeat (setupLogger c) (n + 1) []) s lvl).Nodup := by
  have h : ∀ n, (Nat.repeat (setupLogger c) (n + 1) []).Nodup ∧
      ∀ k, k ∈ Nat.repeat (setupLogger c) (n + 1) [] ↔ Spec.Wanted c k := by
    intro n
    induction n with
    | zero =>
      have := setupLogger_spec c [] (by simp)
      exact ⟨this.1, fun k => (this.2 k).trans (by simp)⟩
    | succ n ih =>
      have := setupLogger_spec c _ ih.1
      refine ⟨this.1, fun k => (this.2 k).trans ?_⟩
      rw [ih.2 k, or_self]
  refine ⟨(h n).1, (h n).2, ?_⟩
  unfold emit
  split
  · exact (h n).1.sublist List.filter_sublist
  · simp

/-- Where the user expects a record of level `lvl` in each mode, if no filters are set: in the
silent modes only critical messages, in the loud mode information and above on the console and
in the user's file, in debug mode everything on the console. -/
def Spec.Expected : LogOp → Nat → Sink → Prop
  | .silenceLogs, lvl, _ => 50 ≤ lvl
  | .quietMode, lvl, _ => 50 ≤ lvl
  | .loudMode, lvl, .con => 20 ≤ lvl
  | .loudMode, lvl, .usr => 20 ≤ lvl
  | .debugMode, _, .con => True
  | _, _, _ => False

/-- **C56 (what the modes let through).** In any state, after switching the mode a record of
level `lvl` (at least `DEBUG`) is written to the console, if the logger writes there at all,
exactly if the mode lets it through and no filter of the console drops it; likewise for the
user's file, except that debug mode leaves it as it was.  The silent modes also hold for the
developer's file, the other two do not touch it. -/
theorem C56_modes (other : Nat → Nat → Bool) (l : List Sink) (s : LogSt) (m : LogOp) (lvl : Nat)
    (hm : Spec.IsSwitch m) (hl : 10 ≤ lvl) :
    (Sink.con ∈ emit other l (endState (logOp m s)) lvl ↔ Sink.con ∈ l ∧ Spec.Expected m lvl .con ∧
      ∀ f ∈ s.conFilters, filterPasses other lvl f = true) ∧
    (m ≠ .debugMode → (Sink.usr ∈ emit other l (endState (logOp m s)) lvl ↔
      Sink.usr ∈ l ∧ Spec.Expected m lvl .usr ∧
      ∀ f ∈ s.usrFilters, filterPasses other lvl f = true)) ∧
    (m = .debugMode → (Sink.usr ∈ emit other l (endState (logOp m s)) lvl ↔
      Sink.usr ∈ emit other l s lvl)) ∧
    (m = .silenceLogs ∨ m = .quietMode → (Sink.dev ∈ emit other l (endState (logOp m s)) lvl ↔
      Sink.dev ∈ l ∧ Spec.Expected m lvl .dev)) ∧
    (m = .loudMode ∨ m = .debugMode → (Sink.dev ∈ emit other l (endState (logOp m s)) lvl ↔
      Sink.dev ∈ emit other l s lvl)) := by
  have h10 : lvlDebug ≤ lvl := hl
  cases m with
  | silenceLogs =>
    simp [emit, h10, handles, logOp, silenceLogs, stateSilence, storeState, Spec.Expected, endState,
      lvlCritical, List.mem_filter, modify_apply]
  | quietMode =>
    simp [emit, h10, handles, logOp, silenceLogs, stateSilence, storeState, Spec.Expected, endState,
      lvlCritical, List.mem_filter, modify_apply]
  | loudMode =>
    simp [emit, h10, handles, logOp, stateLoud, storeState, Spec.Expected, endState, lvlInfo,
      List.mem_filter, modify_apply]
  | debugMode =>
    simp [emit, h10, handles, logOp, stateDebug, storeState, Spec.Expected, endState,
      List.mem_filter, modify_apply]
  | _ => exact hm.elim

/-- Quiet mode: an error is not written, a critical message is; loud mode: information is. -/
example : emit (fun _ _ => true) [.con, .usr] (endState (logOp .quietMode (.init 30 30))) 40 = [] ∧
    emit (fun _ _ => true) [.con, .usr] (endState (logOp .quietMode (.init 30 30))) 50 =
      [.con, .usr] ∧
    emit (fun _ _ => true) [.con, .usr] (endState (logOp .loudMode (.init 30 30))) 20 =
      [.con, .usr] := by decide

/-- **C56 (warnings).** After `silence_warnings()` the console and the user's file do not
receive warnings, and every other record goes where it went before; after
`activate_warnings()` warnings are not held back by the package's filter. -/
theorem C56_warnings_only (other : Nat → Nat → Bool) (l : List Sink) (s : LogSt) (lvl : Nat)
    (hn : s.usrFilters.Nodup) (hc : s.conFilters.Nodup) :
    (∀ k, k ∈ emit other l (endState (logOp .silenceWarnings s)) lvl ↔
      k ∈ emit other l s lvl ∧ (lvl = 30 → k = .dev)) ∧
    (lvl ≠ 30 → emit other l (endState (logOp .activateWarnings s)) lvl = emit other l s lvl) ∧
    warningFilter ∉ (endState (logOp .activateWarnings s)).usrFilters ∧
    warningFilter ∉ (endState (logOp .activateWarnings s)).conFilters := by
  have hadd : ∀ fs : List Nat, (addFilter warningFilter fs).all (filterPasses other lvl) =
      (fs.all (filterPasses other lvl) && (lvl != 30)) := by
    intro fs
    unfold addFilter
    split
    · next hm =>
      rw [Bool.eq_iff_iff]
      simp only [List.all_eq_true, Bool.and_eq_true]
      refine ⟨fun h => ⟨h, ?_⟩, fun h => h.1⟩
      have := h _ hm
      simpa [filterPasses, lvlWarning] using this
    · simp [filterPasses, lvlWarning]
  have hrem : lvl ≠ 30 → ∀ fs : List Nat, fs.Nodup →
      (removeFilter warningFilter fs).all (filterPasses other lvl) =
        fs.all (filterPasses other lvl) := by
    intro hl fs hfs
    unfold removeFilter
    split
    · rw [Bool.eq_iff_iff]
      simp only [List.all_eq_true]
      refine ⟨fun h x hx => ?_, fun h x hx => h x ((List.Nodup.mem_erase_iff hfs).1 hx).2⟩
      by_cases hw : x = warningFilter
      · subst hw; simp [filterPasses, lvlWarning, hl]
      · exact h x ((List.Nodup.mem_erase_iff hfs).2 ⟨hw, hx⟩)
    · rfl
  have hgone : ∀ fs : List Nat, fs.Nodup → warningFilter ∉ removeFilter warningFilter fs := by
    intro fs hfs
    unfold removeFilter
    split
    · exact fun h => ((List.Nodup.mem_erase_iff hfs).1 h).1 rfl
    · assumption
  refine ⟨fun k => ?_, fun hl => ?_, hgone _ hn, hgone _ hc⟩
  · unfold emit
    split
    · simp only [logOp, modify_apply, endState, List.mem_filter]
      cases k
      · simp [handles]
      · simp only [handles, hadd]
        simp only [Bool.and_eq_true, bne_iff_ne, reduceCtorEq]
        exact ⟨fun h => ⟨⟨h.1, h.2.1, h.2.2.1⟩, fun e => h.2.2.2 e⟩,
          fun h => ⟨h.1.1, h.1.2.1, h.1.2.2, fun e => h.2 e⟩⟩
      · simp only [handles, hadd]
        simp only [Bool.and_eq_true, bne_iff_ne, reduceCtorEq]
        exact ⟨fun h => ⟨⟨h.1, h.2.1, h.2.2.1⟩, fun e => h.2.2.2 e⟩,
          fun h => ⟨h.1.1, h.1.2.1, h.1.2.2, fun e => h.2 e⟩⟩
    · simp
  · unfold emit
    split
    · congr 1
      funext k
      simp only [logOp, modify_apply, endState]
      cases k
      · rfl
      · simp only [handles, hrem hl _ hn]
      · simp only [handles, hrem hl _ hc]
    · rfl

/-- A warning disappears from the console, an error does not. -/
example : emit (fun _ _ => true) [.con] (endState (logOp .silenceWarnings (.init 30 30))) 30 = [] ∧
    emit (fun _ _ => true) [.con] (endState (logOp .silenceWarnings (.init 30 30))) 40 = [.con] := by
  decide

/-- **C56 is violated** for the documented meaning of the silent modes ("Turn off all
logging"): critical messages are still written. -/
theorem C56_violated_silence (other : Nat → Nat → Bool) (s : LogSt) (hf : s.conFilters = []) :
    Sink.con ∈ emit other [.con] (logRun [.silenceLogs] s) 50 := by
  refine (C56_modes other [.con] s .silenceLogs 50 trivial (by omega)).1.2 ⟨by simp, ?_, ?_⟩
  · exact Nat.le_refl 50
  · rw [hf]; intro f h; cases h

end Popsynth
