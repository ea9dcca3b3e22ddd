import Verif.Spec.TimeSync
/-!
# Invariants of the virtual time of one participant
-/
namespace SilKit.TimeSync
open Spec

theorem foldl_min_le (l : List Int) (a : Int) : l.foldl min a ≤ a ∧ ∀ x ∈ l, l.foldl min a ≤ x := by
  induction l generalizing a with
  | nil => exact ⟨Int.le_refl a, by simp⟩
  | cons y l ih =>
    obtain ⟨h1, h2⟩ := ih (min a y)
    simp only [List.foldl_cons]
    refine ⟨by omega, ?_⟩
    intro x hx
    rcases List.mem_cons.mp hx with rfl | hx
    · omega
    · exact h2 x hx

theorem foldl_min_mem (l : List Int) (a : Int) : l.foldl min a = a ∨ l.foldl min a ∈ l := by
  induction l generalizing a with
  | nil => exact Or.inl rfl
  | cons y l ih =>
    simp only [List.foldl_cons]
    rcases ih (min a y) with h | h
    · rcases Int.le_total a y with hy | hy
      · left; rw [h]; omega
      · right; rw [h]; have : min a y = y := by omega
        rw [this]; simp
    · exact Or.inr (List.mem_cons_of_mem _ h)

theorem futurePoints_mem (c : TimeConfig) (x : Int) :
    x ∈ c.futurePoints ↔ (∃ e ∈ c.others, x ∈ announcedPoints e.2) ∧ c.current.tp < x := by
  simp only [TimeConfig.futurePoints, List.mem_filter, List.mem_flatMap, announcedPoints, decide_eq_true_eq]

theorem minimalAligned_pos (c : TimeConfig) (h : c.current.tp < maxNs) : 0 < c.minimalAligned := by
  unfold TimeConfig.minimalAligned
  split
  · decide
  · dsimp only
    rcases foldl_min_mem c.futurePoints maxNs with hm | hm
    · rw [hm]
      split
      · decide
      · omega
    · have := ((futurePoints_mem c _).mp hm).2
      split
      · decide
      · omega

/-- What one execution of a step does to the configuration. -/
theorem advance_spec (c : TimeConfig) :
    c.advance.current.tp = c.next.tp ∧ c.advance.next.tp = c.advance.current.tp + c.advance.current.dur ∧
    c.advance.next.dur = c.next.dur ∧ c.advance.others = c.others ∧ c.advance.dynamic = c.dynamic ∧
    c.advance.blocking = c.blocking ∧ c.advance.hoppedOn = c.hoppedOn := by
  refine ⟨?_, rfl, rfl, rfl, rfl, rfl, rfl⟩
  show c.nextCurrent.tp = _
  simp only [TimeConfig.nextCurrent]
  split <;> rfl

theorem advance_dur_pos (c : TimeConfig) (hd : 0 < c.next.dur) (ht : c.next.tp < maxNs) : 0 < c.advance.current.dur := by
  show 0 < c.nextCurrent.dur
  simp only [TimeConfig.nextCurrent]
  split
  · exact minimalAligned_pos _ ht
  · exact hd

theorem advance_dur_le (c : TimeConfig) : c.advance.current.dur ≤ c.next.dur := by
  show c.nextCurrent.dur ≤ _
  simp only [TimeConfig.nextCurrent]
  split
  · next h => exact Int.le_of_lt h.2
  · exact Int.le_refl _

theorem advance_static (c : TimeConfig) (h : c.dynamic = false) : c.advance.current.dur = c.next.dur := by
  show c.nextCurrent.dur = _
  simp [TimeConfig.nextCurrent, h]

theorem advance_aligned (c : TimeConfig) (hdyn : c.dynamic = true) (ht : c.next.tp < maxNs) (e : String × Task) (he : e ∈ c.others)
    (x : Int) (hx : x ∈ announcedPoints e.2) (hlt : c.next.tp < x) : c.next.tp + c.advance.current.dur ≤ x := by
  have hne : c.others.isEmpty = false := by
    cases h : c.others with
    | nil => rw [h] at he; simp at he
    | cons => rfl
  have hm : { c with current := c.next }.minimalAligned ≤ x - c.next.tp := by
    have hmem : x ∈ ({ c with current := c.next } : TimeConfig).futurePoints :=
      (futurePoints_mem _ x).mpr ⟨⟨e, he, hx⟩, hlt⟩
    have h1 := (foldl_min_le ({ c with current := c.next } : TimeConfig).futurePoints maxNs).2 x hmem
    have h2 : 0 ≤ List.foldl min maxNs ({ c with current := c.next } : TimeConfig).futurePoints - c.next.tp := by
      rcases foldl_min_mem ({ c with current := c.next } : TimeConfig).futurePoints maxNs with hm | hm
      · rw [hm]; omega
      · have := ((futurePoints_mem _ _).mp hm).2
        dsimp only at this
        omega
    unfold TimeConfig.minimalAligned
    simp only [hne, Bool.false_eq_true, if_false]
    rw [if_neg (by omega)]
    omega
  show c.next.tp + c.nextCurrent.dur ≤ x
  simp only [TimeConfig.nextCurrent]
  split
  · dsimp only; omega
  · next h =>
    have : ¬ { c with current := c.next }.minimalAligned < c.next.dur := fun hc => h ⟨hdyn, hc⟩
    omega

theorem advance_exact (c : TimeConfig) (ht : c.next.tp < maxNs) :
    c.advance.current.dur = c.next.dur ∨
    c.dynamic = true ∧ ((∃ e ∈ c.others, c.next.tp + c.advance.current.dur ∈ announcedPoints e.2) ∨
      maxNs ≤ c.next.tp + c.next.dur ∨ maxNs < c.next.dur) := by
  show c.nextCurrent.dur = _ ∨ _ ∧ ((∃ e ∈ c.others, c.next.tp + c.nextCurrent.dur ∈ announcedPoints e.2) ∨ _)
  simp only [TimeConfig.nextCurrent]
  split
  · next h =>
    right
    refine ⟨h.1, ?_⟩
    have hm := h.2
    dsimp only
    unfold TimeConfig.minimalAligned at hm ⊢
    dsimp only at hm ⊢
    split at hm
    · next he => right; right; exact hm
    · next he =>
      rw [if_neg he]
      rcases foldl_min_mem ({ c with current := c.next } : TimeConfig).futurePoints maxNs with hmm | hmm
      · right
        rw [hmm] at hm
        split at hm
        · omega
        · left; omega
      · left
        obtain ⟨⟨e, h1, h2⟩, h3⟩ := (futurePoints_mem _ _).mp hmm
        dsimp only at h1 h3
        refine ⟨e, h1, ?_⟩
        rw [if_neg (by omega)]
        have : c.next.tp + (List.foldl min maxNs ({ c with current := c.next } : TimeConfig).futurePoints - c.next.tp) =
          List.foldl min maxNs ({ c with current := c.next } : TimeConfig).futurePoints := by omega
        rw [this]; exact h2
  · left; rfl

/-! ## One participant -/

/-- The virtual time after the executed steps: the next step starts at the end of the last one. -/
structure TimeInv (s : Part) (l : List Task) : Prop where
  dur : 0 < s.cfg.next.dur
  last : ∀ t, l.getLast? = some t → s.cfg.next.tp = t.tp + t.dur ∧ s.hopOnEvaluated = true
  contiguous : Contiguous l

/-- Everything but the time and the step is unchanged. -/
def SameTime (s s' : Part) : Prop :=
  s'.cfg.next.tp = s.cfg.next.tp ∧ s'.cfg.next.dur = s.cfg.next.dur ∧ s'.hopOnEvaluated = s.hopOnEvaluated

theorem TimeInv.same {s s' : Part} {l} (h : TimeInv s l) (hs : SameTime s s') : TimeInv s' l where
  dur := by rw [hs.2.1]; exact h.dur
  last := by intro t ht; rw [hs.1, hs.2.2]; exact h.last t ht
  contiguous := h.contiguous

theorem contiguous_snoc {l : List Task} {t : Task} (h : Contiguous l) (ht : ∀ u, l.getLast? = some u → t.tp = u.tp + u.dur) :
    Contiguous (l ++ [t]) := by
  intro i hi
  simp only [List.length_append, List.length_singleton] at hi
  rcases Nat.lt_or_ge (i + 1) l.length with hlt | hge
  · rw [List.getElem_append_left hlt, List.getElem_append_left (by omega)]
    exact h i hlt
  · have he : i + 1 = l.length := by omega
    rw [List.getElem_append_right hge, List.getElem_append_left (by omega)]
    simp only [he, Nat.sub_self, List.getElem_singleton]
    apply ht
    rw [List.getLast?_eq_getElem?, List.getElem?_eq_getElem (by omega)]
    have : l.length - 1 = i := by omega
    simp [this]

@[simp] theorem steps_nil : steps [] = [] := rfl
@[simp] theorem steps_append (a b : List Out) : steps (a ++ b) = steps a ++ steps b := by simp [steps]

theorem requestNextStep_same (s : Part) : SameTime s s.requestNextStep.1 ∧ steps s.requestNextStep.2 = [] := by
  unfold Part.requestNextStep
  split
  · refine ⟨⟨rfl, rfl, rfl⟩, ?_⟩
    dsimp only; split <;> rfl
  · exact ⟨⟨rfl, rfl, rfl⟩, rfl⟩

theorem execute_inv {s : Part} {l} (h : TimeInv s l) (hh : s.hopOnEvaluated = true) :
    TimeInv s.execute.1 (l ++ steps s.execute.2) where
  dur := by
    show 0 < s.cfg.advance.next.dur
    rw [(advance_spec s.cfg).2.2.1]; exact h.dur
  last := by
    intro t ht
    have : t = s.cfg.advance.current := by
      simp [Part.execute, steps] at ht
      exact ht.symm
    subst this
    exact ⟨(advance_spec s.cfg).2.1, hh⟩
  contiguous := by
    refine contiguous_snoc h.contiguous ?_
    intro u hu
    show s.cfg.advance.current.tp = _
    rw [(advance_spec s.cfg).1]; exact (h.last u hu).1

theorem startWallClock_same (s : Part) : SameTime s s.startWallClock := by
  unfold Part.startWallClock; split <;> exact ⟨rfl, rfl, rfl⟩

theorem advanceAndExecute_inv {s : Part} {l} (h : TimeInv s l) :
    TimeInv s.advanceAndExecute.1 (l ++ steps s.advanceAndExecute.2) := by
  unfold Part.advanceAndExecute
  split
  · split
    · next hh => exact execute_inv h hh
    · next hh =>
      have hl : l.getLast? = none := by
        cases hg : l.getLast? with
        | none => rfl
        | some t => exact absurd (h.last t hg).2 (by simpa using hh)
      split
      · split
        · refine ⟨h.dur, ?_, by simpa [steps] using h.contiguous⟩
          intro t ht
          simp [steps, hl] at ht
        · have h1 : TimeInv ({ s with hopOnEvaluated := true, cfg := s.cfg.hopOn } : Part) l :=
            ⟨h.dur, fun t ht => absurd ht (by rw [hl]; simp), h.contiguous⟩
          refine execute_inv (h1.same (startWallClock_same _)) ?_
          rw [(startWallClock_same _).2.2]
      · have h1 : TimeInv ({ s with hopOnEvaluated := true } : Part) l :=
            ⟨h.dur, fun t ht => absurd ht (by rw [hl]; simp), h.contiguous⟩
        refine execute_inv (h1.same (startWallClock_same _)) ?_
        rw [(startWallClock_same _).2.2]
  · simpa using h

theorem afterSyncStep_same (s : Part) : SameTime s s.afterSyncStep.1 ∧ steps s.afterSyncStep.2 = [] := by
  unfold Part.afterSyncStep
  split
  · exact requestNextStep_same s
  · exact ⟨⟨rfl, rfl, rfl⟩, rfl⟩

theorem advanceSync_inv {s : Part} {l} (h : TimeInv s l) : TimeInv s.advanceSync.1 (l ++ steps s.advanceSync.2) := by
  have h1 := advanceAndExecute_inv h
  unfold Part.advanceSync
  dsimp only
  split
  · have h2 := afterSyncStep_same s.advanceAndExecute.1
    rw [steps_append, h2.2, List.append_nil]
    exact h1.same h2.1
  · exact h1.same ⟨rfl, rfl, rfl⟩

theorem advanceAsync_inv {s : Part} {l} (h : TimeInv s l) : TimeInv s.advanceAsync.1 (l ++ steps s.advanceAsync.2) := by
  unfold Part.advanceAsync
  split
  · simpa using h
  · exact advanceAndExecute_inv (h.same ⟨rfl, rfl, rfl⟩)

theorem process_inv {s : Part} {l} (h : TimeInv s l) : TimeInv s.process.1 (l ++ steps s.process.2) := by
  unfold Part.process
  split
  · split
    · exact advanceSync_inv h
    · exact advanceAsync_inv h
  · simpa using h

theorem complete_same (s : Part) : SameTime s s.complete.1 ∧ steps s.complete.2 = [] := by
  unfold Part.complete
  dsimp only
  split
  · exact requestNextStep_same _
  · exact ⟨⟨rfl, rfl, rfl⟩, rfl⟩

theorem add_next (c : TimeConfig) (q : String) : (c.add q).next = c.next ∧ (c.add q).current = c.current := by
  unfold TimeConfig.add; split <;> exact ⟨rfl, rfl⟩

theorem react_inv {s : Part} {l} (h : TimeInv s l) (e : Event) (he : ∀ d, e = .setStepDuration d → 0 < d) :
    TimeInv (react s e).1 (l ++ steps (react s e).2) := by
  unfold react Part.on
  split
  · simpa using h
  · cases e with
    | lifecycle st a b => simpa using h.same (s' := { s with state := st, stopRequested := a, pauseRequested := b }) ⟨rfl, rfl, rfl⟩
    | systemError b => simpa using h.same (s' := { s with systemError := b }) ⟨rfl, rfl, rfl⟩
    | wallClock t r => simpa using h.same (s' := { s with wallClock := t, wallClockReached := r }) ⟨rfl, rfl, rfl⟩
    | setStepDuration d =>
      have hd := he d rfl
      simp only [TimeConfig.setStepDuration]
      rw [if_neg (by omega)]
      simp only [Option.map_some, Option.getD_some, steps_nil, List.append_nil]
      exact ⟨hd, h.last, h.contiguous⟩
    | setDynamic b =>
      simpa using h.same (s' := { s with cfg := { s.cfg with dynamic := b } }) ⟨rfl, rfl, rfl⟩
    | discovered q =>
      simp only [Option.getD_some, Part.discovered]
      have hs : steps (if 0 ≤ (s.cfg.add q).current.tp then
          [.send (if s.asyncExecuting then (s.cfg.add q).current else (s.cfg.add q).next)] else []) = [] := by
        split <;> rfl
      rw [hs, List.append_nil]
      refine h.same ⟨?_, ?_, rfl⟩
      · show (s.cfg.add q).next.tp = _; rw [(add_next s.cfg q).1]
      · show (s.cfg.add q).next.dur = _; rw [(add_next s.cfg q).1]
    | lost q =>
      simp only [Option.getD_some, Part.lost]
      split
      · exact process_inv (h.same ⟨rfl, rfl, rfl⟩)
      · simpa using h
    | receive q t =>
      simp only [Option.getD_some, Part.receive]
      have h1 : TimeInv ({ s with cfg := s.cfg.receive q t } : Part) l := h.same ⟨rfl, rfl, rfl⟩
      split
      · exact process_inv h1
      · exact process_inv h1
      · simpa [steps] using h1
      · simpa using h1
    | request =>
      simp only [Option.getD_some]
      have h2 := requestNextStep_same s
      rw [h2.2, List.append_nil]
      exact h.same h2.1
    | poll =>
      dsimp only
      split
      · simpa using h
      · exact process_inv (h.same (s' := { s with polls := s.polls - 1 }) ⟨rfl, rfl, rfl⟩)
    | stepReturned =>
      dsimp only
      split
      · have h2 := afterSyncStep_same ({ s with inHandler := false } : Part)
        simp only [Option.getD_some]
        rw [h2.2, List.append_nil]
        exact h.same ⟨h2.1.1, h2.1.2.1, h2.1.2.2⟩
      · simpa using h
    | complete =>
      simp only [Option.getD_some]
      have h2 := complete_same s
      rw [h2.2, List.append_nil]
      exact h.same h2.1

theorem history_append (s : Part) (h : List Event) (e : Event) :
    history s (h ++ [e]) = ((react (history s h).1 e).1, (history s h).2 ++ (react (history s h).1 e).2) := by
  simp [history, List.foldl_append]

theorem history_inv (s : Part) (hs : 0 < s.cfg.next.dur) (h : List Event) (hp : PositiveDurations h) :
    TimeInv (history s h).1 (steps (history s h).2) := by
  rw [← List.reverse_reverse h] at hp ⊢
  generalize h.reverse = h at hp ⊢
  induction h with
  | nil => exact ⟨hs, fun t ht => by simp [history] at ht, fun i hi => by simp [history] at hi⟩
  | cons e h ih =>
    rw [List.reverse_cons] at hp ⊢
    rw [history_append, steps_append]
    refine react_inv (ih (fun d hd => hp d (List.mem_append_left _ hd))) e ?_
    intro d hd
    subst hd
    exact hp d (by simp)

/-- A step executed in reaction to an event comes from `advance`. -/
theorem step_from_execute {s : Part} {tp dur : Int} (h : Out.step tp dur ∈ s.advanceAndExecute.2) :
    ∃ c : TimeConfig, s.advanceAndExecute.1.cfg = c.advance ∧ tp = c.advance.current.tp ∧ dur = c.advance.current.dur := by
  unfold Part.advanceAndExecute at h ⊢
  split at h
  · next h0 =>
    rw [if_pos h0]
    split at h
    · next h1 =>
      rw [if_pos h1]
      simp only [Part.execute, List.mem_singleton, Out.step.injEq] at h
      exact ⟨s.cfg, rfl, h.1, h.2⟩
    · next h1 =>
      rw [if_neg h1]
      split at h
      · next h2 =>
        rw [if_pos h2]
        split at h
        · simp at h
        · next h3 =>
          rw [if_neg h3]
          simp only [Part.execute, List.mem_singleton, Out.step.injEq] at h
          exact ⟨_, rfl, h.1, h.2⟩
      · next h2 =>
        rw [if_neg h2]
        simp only [Part.execute, List.mem_singleton, Out.step.injEq] at h
        exact ⟨_, rfl, h.1, h.2⟩
  · simp at h

theorem not_step_requestNextStep {s : Part} {tp dur : Int} : Out.step tp dur ∉ s.requestNextStep.2 := by
  unfold Part.requestNextStep; split <;> simp

theorem not_step_afterSyncStep {s : Part} {tp dur : Int} : Out.step tp dur ∉ s.afterSyncStep.2 := by
  unfold Part.afterSyncStep; split <;> simp [not_step_requestNextStep]

theorem step_from_process {s : Part} {tp dur : Int} (h : Out.step tp dur ∈ s.process.2) :
    ∃ c : TimeConfig, s.process.1.cfg = c.advance ∧ tp = c.advance.current.tp ∧ dur = c.advance.current.dur := by
  unfold Part.process at h ⊢
  split at h
  · next h0 =>
    rw [if_pos h0]
    split at h
    · next h1 =>
      rw [if_pos h1]
      unfold Part.advanceSync at h ⊢
      dsimp only at h ⊢
      split at h
      · next h2 =>
        rcases List.mem_append.mp h with h | h
        · rcases h2 with h2 | h2 <;> simp [h2] at h
        · exact absurd h not_step_afterSyncStep
      · next h2 =>
        rw [if_neg h2]
        exact step_from_execute h
    · next h1 =>
      rw [if_neg h1]
      unfold Part.advanceAsync at h ⊢
      split at h
      · simp at h
      · next h2 =>
        rw [if_neg h2]
        exact step_from_execute h
  · simp at h

theorem step_from_react {s : Part} {e : Event} {tp dur : Int} (h : Out.step tp dur ∈ (react s e).2) :
    ∃ c : TimeConfig, (react s e).1.cfg = c.advance ∧ tp = c.advance.current.tp ∧ dur = c.advance.current.dur := by
  unfold react Part.on at h ⊢
  split at h
  · simp at h
  · next h0 =>
    rw [if_neg h0]
    cases e with
    | lifecycle st a b => simp at h
    | systemError b => simp at h
    | wallClock t r => simp at h
    | setStepDuration d =>
      simp only [TimeConfig.setStepDuration] at h
      split at h <;> simp at h
    | setDynamic b => simp at h
    | discovered q =>
      simp only [Option.getD_some, Part.discovered] at h
      split at h <;> simp at h
    | lost q =>
      simp only [Option.getD_some, Part.lost] at h ⊢
      split at h
      · next h1 => rw [if_pos h1]; exact step_from_process h
      · simp at h
    | receive q t =>
      simp only [Option.getD_some, Part.receive] at h ⊢
      split at h
      · exact step_from_process h
      · exact step_from_process h
      · simp at h
      · simp at h
    | request => exact absurd h not_step_requestNextStep
    | poll =>
      dsimp only at h ⊢
      split at h
      · simp at h
      · next h1 => rw [if_neg h1]; exact step_from_process h
    | stepReturned =>
      dsimp only at h
      split at h
      · exact absurd h not_step_afterSyncStep
      · simp at h
    | complete =>
      simp only [Option.getD_some, Part.complete] at h
      split at h
      · exact absurd h not_step_requestNextStep
      · simp at h

theorem start_dur (blocking coordinated coupled : Bool) : 0 < (start blocking coordinated coupled).cfg.next.dur := by
  show (0 : Int) < 1000000
  decide

/-! ## The configuration follows the events -/

/-- The same configured duration, mode and announcements. -/
def SameConfig (s s' : Part) : Prop :=
  s'.cfg.next.dur = s.cfg.next.dur ∧ s'.cfg.dynamic = s.cfg.dynamic ∧ s'.cfg.others = s.cfg.others

theorem SameConfig.trans {a b c : Part} (h : SameConfig a b) (h' : SameConfig b c) : SameConfig a c :=
  ⟨h'.1.trans h.1, h'.2.1.trans h.2.1, h'.2.2.trans h.2.2⟩

theorem request_config (s : Part) : SameConfig s s.requestNextStep.1 := by
  unfold Part.requestNextStep; split <;> exact ⟨rfl, rfl, rfl⟩

theorem afterSync_config (s : Part) : SameConfig s s.afterSyncStep.1 := by
  unfold Part.afterSyncStep; split
  · exact request_config s
  · exact ⟨rfl, rfl, rfl⟩

theorem execute_config (s : Part) : SameConfig s s.execute.1 :=
  ⟨(advance_spec s.cfg).2.2.1, (advance_spec s.cfg).2.2.2.2.1, (advance_spec s.cfg).2.2.2.1⟩

theorem startWallClock_config (s : Part) : SameConfig s s.startWallClock := by
  unfold Part.startWallClock; split <;> exact ⟨rfl, rfl, rfl⟩

theorem advanceAndExecute_config (s : Part) : SameConfig s s.advanceAndExecute.1 := by
  unfold Part.advanceAndExecute
  split
  · split
    · exact execute_config s
    · split
      · split
        · exact ⟨rfl, rfl, rfl⟩
        · exact SameConfig.trans (b := { s with hopOnEvaluated := true, cfg := s.cfg.hopOn }) ⟨rfl, rfl, rfl⟩
            ((startWallClock_config _).trans (execute_config _))
      · exact SameConfig.trans (b := { s with hopOnEvaluated := true }) ⟨rfl, rfl, rfl⟩
            ((startWallClock_config _).trans (execute_config _))
  · exact ⟨rfl, rfl, rfl⟩

theorem process_config (s : Part) : SameConfig s s.process.1 := by
  unfold Part.process
  split
  · split
    · unfold Part.advanceSync
      dsimp only
      split
      · exact (advanceAndExecute_config s).trans (afterSync_config _)
      · exact advanceAndExecute_config s
    · unfold Part.advanceAsync
      split
      · exact ⟨rfl, rfl, rfl⟩
      · exact SameConfig.trans (b := { s with asyncExecuting := true }) ⟨rfl, rfl, rfl⟩ (advanceAndExecute_config _)
  · exact ⟨rfl, rfl, rfl⟩

/-- How an event changes the announcements. -/
def othersAfter (c : TimeConfig) : Event → List (String × Task)
  | .discovered q => (c.add q).others
  | .lost q => (c.remove q).others
  | .receive q t => (c.receive q t).others
  | _ => c.others

/-- How an event changes the configured duration. -/
def durAfter (d : Int) : Event → Int
  | .setStepDuration d' => d'
  | _ => d

/-- How an event changes the mode. -/
def dynamicAfter (b : Bool) : Event → Bool
  | .setDynamic b' => b'
  | _ => b

theorem remove_unknown (c : TimeConfig) (q : String) (h : (c.view q).isSome = false) : (c.remove q).others = c.others := by
  simp only [TimeConfig.view, Option.isSome_map, List.find?_isSome, Bool.eq_false_iff, ne_eq, not_exists, not_and] at h
  simp only [TimeConfig.remove]
  rw [List.filter_eq_self]
  intro e he
  have := h e he
  simpa using this

theorem on_config {s s' : Part} {e : Event} {outs} (h : s.on e = some (s', outs)) :
    s'.cfg.next.dur = durAfter s.cfg.next.dur e ∧ s'.cfg.dynamic = dynamicAfter s.cfg.dynamic e ∧ s'.cfg.others = othersAfter s.cfg e := by
  unfold Part.on at h
  split at h
  · cases h
  · cases e with
    | lifecycle st a b => cases h; exact ⟨rfl, rfl, rfl⟩
    | systemError b => cases h; exact ⟨rfl, rfl, rfl⟩
    | wallClock t r => cases h; exact ⟨rfl, rfl, rfl⟩
    | setStepDuration d =>
      simp only [TimeConfig.setStepDuration] at h
      split at h
      · cases h
      · cases h; exact ⟨rfl, rfl, rfl⟩
    | setDynamic b => cases h; exact ⟨rfl, rfl, rfl⟩
    | discovered q =>
      cases h
      refine ⟨?_, ?_, rfl⟩
      · show (s.cfg.add q).next.dur = _; rw [(add_next s.cfg q).1]; rfl
      · show (s.cfg.add q).dynamic = _; unfold TimeConfig.add; split <;> rfl
    | lost q =>
      simp only [Part.lost, Option.some.injEq] at h
      split at h
      · have hc := process_config ({ s with cfg := s.cfg.remove q } : Part)
        rw [h] at hc
        exact hc
      · next hn =>
        cases h
        exact ⟨rfl, rfl, (remove_unknown _ _ (by simpa using hn)).symm⟩
    | receive q t =>
      simp only [Part.receive, Option.some.injEq] at h
      have hc := process_config ({ s with cfg := s.cfg.receive q t } : Part)
      split at h
      · rw [h] at hc; exact hc
      · rw [h] at hc; exact hc
      · cases h; exact ⟨rfl, rfl, rfl⟩
      · cases h; exact ⟨rfl, rfl, rfl⟩
    | request =>
      simp only [Option.some.injEq] at h
      have hc := request_config s
      rw [h] at hc; exact hc
    | poll =>
      dsimp only at h
      split at h
      · cases h
      · simp only [Option.some.injEq] at h
        have hc := process_config ({ s with polls := s.polls - 1 } : Part)
        rw [h] at hc; exact hc
    | stepReturned =>
      dsimp only at h
      split at h
      · simp only [Option.some.injEq] at h
        have hc := afterSync_config ({ s with inHandler := false } : Part)
        rw [h] at hc; exact hc
      · cases h
    | complete =>
      simp only [Part.complete, Option.some.injEq] at h
      split at h
      · have hc := request_config ({ s with asyncExecuting := false, wallClockReached := false } : Part)
        rw [h] at hc; exact hc
      · cases h; exact ⟨rfl, rfl, rfl⟩

/-- Every name occurs once, and exactly with what it announced. -/
def Views (l : List (String × Task)) (f : String → Option Task) : Prop := ∀ q t, (q, t) ∈ l ↔ f q = some t

/-- One event, on the specification side. -/
def announcedStep (q : String) (v : Option Task) (e : Event) : Option Task :=
  match e with
  | .discovered a => if a = q then some (v.getD ⟨-1, 0⟩) else v
  | .lost a => if a = q then none else v
  | .receive a t => if a = q then v.map (fun _ => t) else v
  | _ => v

theorem view_isSome {c : TimeConfig} {f} (h : Views c.others f) (q : String) : (c.view q).isSome = (f q).isSome := by
  rw [Bool.eq_iff_iff]
  simp only [TimeConfig.view, Option.isSome_map, List.find?_isSome, beq_iff_eq]
  constructor
  · rintro ⟨⟨a, t⟩, hm, rfl⟩
    rw [(h a t).mp hm]; rfl
  · intro hs
    obtain ⟨t, ht⟩ := Option.isSome_iff_exists.mp hs
    exact ⟨(q, t), (h q t).mpr ht, rfl⟩

theorem othersAfter_views {c : TimeConfig} {f} (h : Views c.others f) (e : Event) :
    Views (othersAfter c e) (fun q => announcedStep q (f q) e) := by
  cases e with
  | discovered a =>
    have hv := view_isSome h a
    intro q t
    simp only [othersAfter, TimeConfig.add, announcedStep]
    cases hf : f a with
    | none =>
      rw [hf] at hv
      rw [if_neg (by simp [hv])]
      simp only [List.mem_append, List.mem_singleton, Prod.mk.injEq]
      rw [h q t]
      by_cases hq : a = q
      · subst hq; simp [hf, eq_comm]
      · have : ¬ q = a := fun hh => hq hh.symm
        simp [hq, this]
    | some u =>
      rw [hf] at hv
      rw [if_pos (by simp [hv])]
      rw [h q t]
      by_cases hq : a = q
      · subst hq; simp [hf]
      · simp [hq]
  | lost a =>
    intro q t
    simp only [othersAfter, TimeConfig.remove, List.mem_filter, announcedStep, h q t]
    by_cases hq : a = q
    · subst hq; simp
    · have : ¬ q = a := fun hh => hq hh.symm
      simp [hq, this]
  | receive a u =>
    intro q t
    simp only [othersAfter, TimeConfig.receive, List.mem_map, announcedStep]
    constructor
    · rintro ⟨⟨b, v⟩, hm, hx⟩
      have hb := (h b v).mp hm
      split at hx
      · next hba =>
        simp only [Prod.mk.injEq] at hx
        obtain ⟨rfl, rfl⟩ := hx
        rw [if_pos hba.symm, hb]; rfl
      · next hba =>
        simp only [Prod.mk.injEq] at hx
        obtain ⟨rfl, rfl⟩ := hx
        rw [if_neg (fun hh => hba hh.symm), hb]
    · intro hx
      split at hx
      · next hq =>
        subst hq
        obtain ⟨v, hv, rfl⟩ := Option.map_eq_some_iff.mp hx
        exact ⟨(a, v), (h a v).mpr hv, by simp⟩
      · next hq =>
        have : ¬ q = a := fun hh => hq hh.symm
        exact ⟨(q, t), (h q t).mpr hx, by simp [this]⟩
  | lifecycle _ _ _ => exact h
  | systemError _ => exact h
  | wallClock _ _ => exact h
  | setStepDuration _ => exact h
  | setDynamic _ => exact h
  | request => exact h
  | poll => exact h
  | stepReturned => exact h
  | complete => exact h

theorem occurred_state (s : Part) (h : List Event) :
    (h.foldl (fun r e => ((react r.1 e).1, if (r.1.on e).isSome then r.2 ++ [e] else r.2)) (s, ([] : List Event))).1 =
    (history s h).1 := by
  rw [← List.reverse_reverse h]
  generalize h.reverse = h
  induction h with
  | nil => rfl
  | cons e h ih =>
    rw [List.reverse_cons, history_append, List.foldl_append]
    simp only [List.foldl_cons, List.foldl_nil]
    rw [ih]

theorem occurred_append (s : Part) (h : List Event) (e : Event) :
    occurred s (h ++ [e]) = if ((history s h).1.on e).isSome then occurred s h ++ [e] else occurred s h := by
  simp only [occurred, List.foldl_append, List.foldl_cons, List.foldl_nil, occurred_state]

/-- The configuration of a participant is determined by the events that happened to it. -/
structure ConfigInv (s : Part) (h : List Event) : Prop where
  dur : s.cfg.next.dur = configuredDuration h
  dynamic : s.cfg.dynamic = dynamicEnabled h
  views : Views s.cfg.others (fun q => announced q h)

theorem history_config (blocking coordinated coupled : Bool) (h : List Event) :
    ConfigInv (history (start blocking coordinated coupled) h).1 (occurred (start blocking coordinated coupled) h) := by
  rw [← List.reverse_reverse h]
  generalize h.reverse = h
  induction h with
  | nil => exact ⟨rfl, rfl, by intro q t; simp [history, start, announced, occurred]⟩
  | cons e h ih =>
    rw [List.reverse_cons, history_append, occurred_append]
    generalize hh : h.reverse = h' at ih ⊢
    cases ho : (history (start blocking coordinated coupled) h').1.on e with
    | none =>
      simp only [react, ho, Option.getD_none, Option.isSome_none, Bool.false_eq_true, if_false]
      exact ih
    | some r =>
      obtain ⟨h1, h2, h3⟩ := on_config (s' := r.1) (outs := r.2) ho
      simp only [react, ho, Option.getD_some, Option.isSome_some, if_true]
      refine ⟨?_, ?_, ?_⟩
      · rw [h1, ih.dur]
        simp only [configuredDuration, List.foldl_append, List.foldl_cons, List.foldl_nil]
        cases e <;> rfl
      · rw [h2, ih.dynamic]
        simp only [dynamicEnabled, List.foldl_append, List.foldl_cons, List.foldl_nil]
        cases e <;> rfl
      · rw [h3]
        have := othersAfter_views ih.views e
        have hf : (fun q => announced q (occurred (start blocking coordinated coupled) h' ++ [e])) =
            (fun q => announcedStep q (announced q (occurred (start blocking coordinated coupled) h')) e) := by
          funext q
          simp only [announced, List.foldl_append, List.foldl_cons, List.foldl_nil]
          rfl
        rw [hf]
        exact this

end SilKit.TimeSync
