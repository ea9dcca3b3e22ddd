import Verif.Spec.SystemState
/-!
# Lemmas about the system state
-/
namespace SilKit.SystemState
open Spec

theorem lookup_filter_ne {α : Type} (l : List (String × α)) (p q : String) (h : q ≠ p) :
    (l.filter (fun e => e.1 ≠ p)).lookup q = l.lookup q := by
  induction l with
  | nil => rfl
  | cons e l ih =>
    obtain ⟨k, v⟩ := e
    by_cases hk : k = p
    · subst hk
      rw [List.filter_cons_of_neg (by simp), ih, List.lookup_cons]
      have : (q == k) = false := by simpa using h
      rw [this]
    · rw [List.filter_cons_of_pos (by simpa using hk), List.lookup_cons, List.lookup_cons, ih]

theorem lookup_filter_self {α : Type} (l : List (String × α)) (p : String) : (l.filter (fun e => e.1 ≠ p)).lookup p = none := by
  induction l with
  | nil => rfl
  | cons e l ih =>
    obtain ⟨k, v⟩ := e
    by_cases hk : k = p
    · subst hk
      rw [List.filter_cons_of_neg (by simp), ih]
    · rw [List.filter_cons_of_pos (by simpa using hk), List.lookup_cons, ih]
      have : (p == k) = false := by simpa using fun h => hk h.symm
      rw [this]

theorem status_setStatus (t : Tracker) (p q : String) (s : ParticipantState) :
    (t.setStatus p s).status q = if p = q then some s else t.status q := by
  unfold Tracker.status Tracker.setStatus
  rw [List.lookup_cons]
  by_cases h : p = q
  · subst h; simp
  · have : (q == p) = false := by simpa using fun h' => h h'.symm
    rw [this, if_neg h]
    exact lookup_filter_ne t.cache p q (fun h' => h h'.symm)

/-- The fields of an update. -/
theorem update_status (t : Tracker) (p q : String) (s : ParticipantState) :
    (t.update p s).tracker.status q =
      if p = q then (if t.status q = some .shutdown then t.status q else if s = .invalid then some ((t.status q).getD .invalid) else some s)
      else t.status q := by
  unfold Tracker.update
  dsimp only
  split
  · rename_i hs
    subst hs
    dsimp only
    by_cases h : p = q
    · subst h
      split
      · rename_i hn
        rw [status_setStatus, if_pos rfl, if_pos rfl, hn]
        rfl
      · rename_i hn
        rw [if_pos rfl]
        rcases hx : t.status p with _ | x
        · exact absurd hx hn
        · simp
    · rw [if_neg h]
      split
      · rw [status_setStatus, if_neg h]
      · rfl
  · rename_i hs
    split
    · rename_i ho
      by_cases h : p = q
      · subst h
        rw [if_pos rfl]
        rcases hx : t.status p with _ | x
        · rw [hx] at ho; cases ho
        · rw [hx] at ho
          simp only [Option.getD_some] at ho
          subst ho
          simp
      · rw [if_neg h]
    · rename_i ho
      have key : (t.setStatus p s).status q =
          if p = q then (if t.status q = some .shutdown then t.status q else some s) else t.status q := by
        rw [status_setStatus]
        by_cases h : p = q
        · subst h
          rw [if_pos rfl, if_pos rfl, if_neg]
          intro hx; rw [hx] at ho; exact ho rfl
        · rw [if_neg h, if_neg h]
      split
      · exact key
      · split
        · exact key
        · exact key

theorem remove_status (t : Tracker) (p q : String) : (t.remove p).1.status q = if p = q then none else t.status q := by
  unfold Tracker.remove
  split
  · rename_i h
    by_cases hq : p = q
    · subst hq; rw [if_pos rfl]; exact h
    · rw [if_neg hq]
  · by_cases hq : p = q
    · subst hq; rw [if_pos rfl]; exact lookup_filter_self t.cache p
    · rw [if_neg hq]; exact lookup_filter_ne t.cache p q (fun h => hq h.symm)

theorem require_status (t : Tracker) (names : List String) (q : String) : (t.require names).1.status q = t.status q := rfl

theorem update_required (t : Tracker) (p : String) (s : ParticipantState) : (t.update p s).tracker.required = t.required := by
  unfold Tracker.update
  dsimp only
  split
  · dsimp only; split <;> rfl
  · split
    · rfl
    · split
      · rfl
      · split <;> rfl

theorem remove_required (t : Tracker) (p : String) : (t.remove p).1.required = t.required := by
  unfold Tracker.remove
  split <;> rfl

theorem run_append (h : List Op) (o : Op) : run (h ++ [o]) = (step (run h) o).1 := by simp [run]

theorem current_append (h : List Op) (o : Op) (p : String) :
    current (h ++ [o]) p = match o with
      | .update q s => if q = p then (if current h p = some .shutdown then current h p
          else if s = .invalid then some ((current h p).getD .invalid) else some s) else current h p
      | .remove q => if q = p then none else current h p
      | .require _ => current h p := by
  simp only [current, List.foldl_append, List.foldl_cons, List.foldl_nil]
  cases o <;> rfl

theorem required_append (h : List Op) (o : Op) :
    required (h ++ [o]) = match o with | .require names => names | _ => required h := by
  simp only [required, List.foldl_append, List.foldl_cons, List.foldl_nil]
  cases o <;> rfl

/-- The tracker knows the state of every participant and who is required. -/
theorem run_knows (h : List Op) : (∀ p, (run h).status p = current h p) ∧ (run h).required = required h := by
  rw [← List.reverse_reverse h]
  induction h.reverse with
  | nil => exact ⟨fun _ => rfl, rfl⟩
  | cons o h ih =>
    obtain ⟨ih1, ih2⟩ := ih
    rw [List.reverse_cons, run_append, required_append]
    constructor
    · intro p
      rw [current_append]
      cases o with
      | update q s => rw [step]; dsimp only; rw [update_status, ih1 p]
      | remove q => rw [step]; dsimp only; rw [remove_status, ih1 p]
      | require names => exact ih1 p
    · cases o with
      | update q s => rw [step]; dsimp only; rw [update_required, ih2]
      | remove q => rw [step]; dsimp only; rw [remove_required, ih2]
      | require names => rfl

/-! ### Computing the system state -/

theorem allIn_iff (t : Tracker) (states : List ParticipantState) :
    t.allIn states = true ↔ ∀ p ∈ t.required, ∃ x ∈ states, t.status p = some x := by
  unfold Tracker.allIn
  rw [List.all_eq_true]
  refine forall_congr' fun p => forall_congr' fun _ => ?_
  rcases t.status p with _ | x
  · simp
  · simp

theorem not_allIn (t : Tracker) (l1 l2 : List ParticipantState) (h1 : ¬ t.allIn l1 = true) (h2 : t.allIn l2 = true) :
    ∃ p ∈ t.required, ∃ x ∈ l2, x ∉ l1 ∧ t.status p = some x := by
  rw [allIn_iff] at h1 h2
  apply Classical.byContradiction
  intro hn
  refine h1 fun p hp => ?_
  obtain ⟨x, hx, hs⟩ := h2 p hp
  refine ⟨x, ?_, hs⟩
  exact Classical.byContradiction fun hxl => hn ⟨p, hp, x, hx, hxl, hs⟩

theorem base_of_status (t : Tracker) (p : String) (s : ParticipantState) (h : t.status p = some s) : t.base = t.system := by
  unfold Tracker.base
  rw [if_neg]
  intro he
  have : t.cache = [] := by simpa using he
  rw [Tracker.status, this] at h
  cases h

/-- A system state computed because of a required participant's state is the old one or justified. -/
theorem compute_justified (t : Tracker) (p : String) (s : ParticipantState) (hp : p ∈ t.required) (hs : t.status p = some s) :
    t.compute s = t.system ∨ Justified t.required t.status (t.compute s) := by
  have hb := base_of_status t p s hs
  have all : ∀ {l l' : List ParticipantState}, t.allIn l = true → l ⊆ l' → ∀ q ∈ t.required, ∃ x ∈ l', t.status q = some x :=
    fun h hl q hq => by obtain ⟨x, hx, hxs⟩ := (allIn_iff t _).mp h q hq; exact ⟨x, hl hx, hxs⟩
  have pick : ∀ {l1 l2 : List ParticipantState} {x : ParticipantState}, ¬ t.allIn l1 = true → t.allIn l2 = true →
      (∀ y ∈ l2, y ∉ l1 → y = x) → ∃ q ∈ t.required, t.status q = some x := by
    intro l1 l2 x h1 h2 h3
    obtain ⟨q, hq, y, hy, hy', hys⟩ := not_allIn t l1 l2 h1 h2
    exact ⟨q, hq, by rw [← h3 y hy hy']; exact hys⟩
  cases s with
  | invalid => exact Or.inl hb
  | aborting => exact Or.inr ⟨p, hp, hs⟩
  | error => exact Or.inr ⟨p, hp, hs⟩
  | running =>
    simp only [Tracker.compute, alternatives, Tracker.firstOf]
    split
    · rename_i h; exact Or.inr ⟨⟨p, hp, hs⟩, all h (by simp [companions])⟩
    · rename_i h1
      split
      · rename_i h; exact Or.inr ⟨pick h1 h (by decide), all h (by simp [companions])⟩
      · split
        · rename_i h; exact Or.inr ⟨pick h1 h (by decide), all h (by simp [companions])⟩
        · rename_i h2
          split
          · rename_i h; exact Or.inr ⟨pick h2 h (by decide), all h (by simp [companions])⟩
          · rename_i h3
            split
            · rename_i h; exact Or.inr ⟨pick h3 h (by decide), all h (by simp [companions])⟩
            · exact Or.inl hb
  | paused =>
    simp only [Tracker.compute, alternatives, Tracker.firstOf]
    split
    · rename_i h; exact Or.inr ⟨⟨p, hp, hs⟩, all h (by simp [companions])⟩
    · rename_i h1
      split
      · rename_i h; exact Or.inr ⟨pick h1 h (by decide), all h (by simp [companions])⟩
      · split
        · rename_i h; exact Or.inr ⟨pick h1 h (by decide), all h (by simp [companions])⟩
        · rename_i h2
          split
          · rename_i h; exact Or.inr ⟨pick h2 h (by decide), all h (by simp [companions])⟩
          · rename_i h3
            split
            · rename_i h; exact Or.inr ⟨pick h3 h (by decide), all h (by simp [companions])⟩
            · exact Or.inl hb
  | _ =>
    simp only [Tracker.compute, alternatives, Tracker.firstOf]
    split
    · rename_i h; exact Or.inr ⟨⟨p, hp, hs⟩, all h (by simp [companions])⟩
    · exact Or.inl hb

/-- Nobody's state is known. -/
theorem base_cases (t : Tracker) : t.base = t.system ∨ ((∀ p, t.status p = none) ∧ (t.base = .invalid ∨
    (t.base = .shutdown ∧ t.system = .shuttingDown))) := by
  unfold Tracker.base
  split
  · rename_i h
    have : t.cache = [] := by simpa using h
    have hn : ∀ p, t.status p = none := fun p => by rw [Tracker.status, this]; rfl
    cases hs : t.system <;> simp [hn]
  · exact Or.inl rfl

theorem compute_anyRequired (t : Tracker) : t.compute t.anyRequired = t.system ∨ Justified t.required t.status (t.compute t.anyRequired) ∨
    ((∀ p, t.status p = none) ∧ (t.compute t.anyRequired = .invalid ∨
      (t.compute t.anyRequired = .shutdown ∧ t.system = .shuttingDown))) := by
  have hinv : t.compute .invalid = t.base := rfl
  unfold Tracker.anyRequired
  split
  · rw [hinv]
    rcases base_cases t with h | h
    · exact Or.inl h
    · exact Or.inr (Or.inr h)
  · rename_i p rest hr
    rcases hs : t.status p with _ | s
    · rw [Option.getD_none, hinv]
      rcases base_cases t with h | h
      · exact Or.inl h
      · exact Or.inr (Or.inr h)
    · rw [Option.getD_some]
      have hp : p ∈ t.required := by rw [hr]; simp
      rcases compute_justified t p s hp hs with h | h
      · exact Or.inl h
      · exact Or.inr (Or.inl h)

theorem step_justified (t : Tracker) (o : Op) (hc : (step t o).2 = true) :
    Justified (step t o).1.required (step t o).1.status (step t o).1.system ∨
    ((∀ p, (step t o).1.status p = none) ∧ ((step t o).1.system = .invalid ∨
      ((step t o).1.system = .shutdown ∧ t.system = .shuttingDown))) := by
  cases o with
  | update p s =>
    rw [step] at hc ⊢
    dsimp only at hc ⊢
    have hst := update_status t p p s
    unfold Tracker.update at hc hst ⊢
    dsimp only at hc hst ⊢
    split at hc
    · cases hc
    · rename_i hs
      split at hc
      · cases hc
      · rename_i ho
        split at hc
        · cases hc
        · rename_i hos
          split at hc
          · rename_i hr
            have hne : (t.setStatus p s).system ≠ (t.setStatus p s).compute s := by simpa using hc
            have hr' : p ∈ (t.setStatus p s).required := by simpa using hr
            rw [if_neg hs, if_neg ho, if_neg hos, if_pos hr]
            have hs' : (t.setStatus p s).status p = some s := by rw [status_setStatus, if_pos rfl]
            rcases compute_justified _ p s hr' hs' with h | h
            · exact absurd h.symm hne
            · exact Or.inl h
          · cases hc
  | remove p =>
    rw [step] at hc ⊢
    unfold Tracker.remove at hc ⊢
    split at hc
    · cases hc
    · rename_i hn
      rw [if_neg hn]
      dsimp only at hc ⊢
      have hne := of_decide_eq_true hc
      rcases compute_anyRequired { t with cache := t.cache.filter (fun e => e.1 ≠ p) } with h | h | h
      · exact absurd h.symm hne
      · exact Or.inl h
      · exact Or.inr h
  | require names =>
    rw [step] at hc ⊢
    unfold Tracker.require at hc ⊢
    dsimp only at hc ⊢
    have hne := of_decide_eq_true hc
    rcases compute_anyRequired { t with required := names } with h | h | h
    · exact absurd h.symm hne
    · exact Or.inl h
    · exact Or.inr h

/-! ### Error and Aborting dominate -/

/-- The system states possible while a required participant is in Error or Aborting. -/
def Alarmed (t : Tracker) : Prop :=
  (∀ p ∈ t.required, t.status p = some .error → t.system = .error ∨ t.system = .aborting ∨ t.system = .shuttingDown) ∧
  (∀ p ∈ t.required, t.status p = some .aborting → t.system = .error ∨ t.system = .aborting)

theorem firstOf_cases (t : Tracker) (l : List (ParticipantState × List ParticipantState)) :
    t.firstOf l = t.base ∨ ∃ a ∈ l, t.firstOf l = a.1 ∧ t.allIn a.2 = true := by
  induction l with
  | nil => exact Or.inl rfl
  | cons a l ih =>
    rw [Tracker.firstOf]
    split
    · exact Or.inr ⟨a, by simp, rfl, ‹_›⟩
    · rcases ih with h | ⟨b, hb, h⟩
      · exact Or.inl h
      · exact Or.inr ⟨b, List.mem_cons_of_mem _ hb, h⟩

theorem alternatives_error : ∀ s : ParticipantState, ∀ a ∈ alternatives s, .error ∈ a.2 → a.1 = .shuttingDown := by
  intro s; cases s <;> decide

theorem alternatives_aborting : ∀ s : ParticipantState, ∀ a ∈ alternatives s, .aborting ∉ a.2 := by
  intro s; cases s <;> decide

theorem compute_alarmed (t : Tracker) (s : ParticipantState) (h : Alarmed t) : Alarmed { t with system := t.compute s } := by
  have key : t.compute s = .error ∨ t.compute s = .aborting ∨ t.compute s = t.base ∨
      ∃ a ∈ alternatives s, t.compute s = a.1 ∧ t.allIn a.2 = true := by
    cases s with
    | error => exact Or.inl rfl
    | aborting => exact Or.inr (Or.inl rfl)
    | _ => exact Or.inr (Or.inr (firstOf_cases t _))
  constructor
  · intro p hp hs
    change t.status p = some .error at hs
    dsimp only
    rcases key with h1 | h1 | h1 | ⟨a, ha, h1, h2⟩
    · exact Or.inl h1
    · exact Or.inr (Or.inl h1)
    · rw [h1, base_of_status t p _ hs]; exact h.1 p hp hs
    · obtain ⟨x, hx, hxs⟩ := (allIn_iff t _).mp h2 p hp
      rw [hs] at hxs
      cases hxs
      rw [h1, alternatives_error s a ha hx]
      simp
  · intro p hp hs
    change t.status p = some .aborting at hs
    dsimp only
    rcases key with h1 | h1 | h1 | ⟨a, ha, h1, h2⟩
    · exact Or.inl h1
    · exact Or.inr h1
    · rw [h1, base_of_status t p _ hs]; exact h.2 p hp hs
    · obtain ⟨x, hx, hxs⟩ := (allIn_iff t _).mp h2 p hp
      rw [hs] at hxs
      cases hxs
      exact absurd hx (alternatives_aborting s a ha)

theorem step_alarmed (t : Tracker) (o : Op) (h : Alarmed t) (ho : ∀ names, o ≠ .require names) : Alarmed (step t o).1 := by
  cases o with
  | require names => exact absurd rfl (ho names)
  | remove p =>
    rw [step]
    unfold Tracker.remove
    split
    · exact h
    · refine compute_alarmed _ _ ?_
      have hst : ∀ q x, ({ t with cache := t.cache.filter (fun e => e.1 ≠ p) } : Tracker).status q = some x → t.status q = some x := by
        intro q x hq
        change (t.cache.filter (fun e => e.1 ≠ p)).lookup q = some x at hq
        by_cases hqp : q = p
        · subst hqp; rw [lookup_filter_self] at hq; cases hq
        · rwa [lookup_filter_ne _ _ _ hqp] at hq
      exact ⟨fun q hq hs => h.1 q hq (hst q _ hs), fun q hq hs => h.2 q hq (hst q _ hs)⟩
  | update p s =>
    rw [step]
    dsimp only
    unfold Tracker.update
    dsimp only
    split
    · rename_i hs
      dsimp only
      split
      · constructor
        · intro q hq hst
          rw [status_setStatus] at hst
          split at hst
          · simp at hst
          · exact h.1 q hq hst
        · intro q hq hst
          rw [status_setStatus] at hst
          split at hst
          · simp at hst
          · exact h.2 q hq hst
      · exact h
    · rename_i hs
      split
      · exact h
      · split
        · rename_i hos
          constructor
          · intro q hq hst
            rw [status_setStatus] at hst
            split at hst
            · rename_i hpq
              subst hpq
              rcases hx : t.status p with _ | x
              · rw [hx] at hos; exact absurd hos.symm hs
              · rw [hx] at hos
                simp at hos hst
                subst hos hst
                exact h.1 p hq hx
            · exact h.1 q hq hst
          · intro q hq hst
            rw [status_setStatus] at hst
            split at hst
            · rename_i hpq
              subst hpq
              rcases hx : t.status p with _ | x
              · rw [hx] at hos; exact absurd hos.symm hs
              · rw [hx] at hos
                simp at hos hst
                subst hos hst
                exact h.2 p hq hx
            · exact h.2 q hq hst
        · split
          · rename_i hr
            -- the changed participant itself triggers; for it the result is immediate
            cases s with
            | error =>
              exact ⟨fun _ _ _ => Or.inl rfl, fun _ _ _ => Or.inl rfl⟩
            | aborting =>
              exact ⟨fun _ _ _ => Or.inr (Or.inl rfl), fun _ _ _ => Or.inr rfl⟩
            | _ =>
              refine compute_alarmed _ _ ?_
              constructor
              · intro q hq hst
                rw [status_setStatus] at hst
                split at hst
                · simp at hst
                · exact h.1 q hq hst
              · intro q hq hst
                rw [status_setStatus] at hst
                split at hst
                · simp at hst
                · exact h.2 q hq hst
          · rename_i hr
            have hne : ∀ q ∈ t.required, p ≠ q := fun q hq hpq => hr (by subst hpq; simpa [Tracker.setStatus] using hq)
            constructor
            · intro q hq hst
              rw [status_setStatus, if_neg (hne q hq)] at hst
              exact h.1 q hq hst
            · intro q hq hst
              rw [status_setStatus, if_neg (hne q hq)] at hst
              exact h.2 q hq hst

/-! ### What is reported -/

theorem reports_fold (h : List Op) : h.foldl (fun (r : Tracker × List ParticipantState) o =>
    ((step r.1 o).1, if (step r.1 o).2 then r.2 ++ [(step r.1 o).1.system] else r.2)) ({}, []) = (run h, reports h) := by
  rw [← List.reverse_reverse h]
  induction h.reverse with
  | nil => rfl
  | cons o h ih =>
    have e : ∀ (h : List Op) (o : Op), h.foldl (fun (r : Tracker × List ParticipantState) o =>
      ((step r.1 o).1, if (step r.1 o).2 then r.2 ++ [(step r.1 o).1.system] else r.2)) ({}, []) = (run h, reports h) →
      (h ++ [o]).foldl (fun (r : Tracker × List ParticipantState) o =>
      ((step r.1 o).1, if (step r.1 o).2 then r.2 ++ [(step r.1 o).1.system] else r.2)) ({}, []) =
        (run (h ++ [o]), reports (h ++ [o])) := by
      intro h o hh
      have h2 : (h ++ [o]).foldl (fun (r : Tracker × List ParticipantState) o =>
        ((step r.1 o).1, if (step r.1 o).2 then r.2 ++ [(step r.1 o).1.system] else r.2)) ({}, []) =
          ((step (run h) o).1, if (step (run h) o).2 then reports h ++ [(step (run h) o).1.system] else reports h) := by
        rw [List.foldl_append, hh]; rfl
      rw [run_append]
      refine Prod.ext ?_ ?_
      · rw [h2]
      · rfl
    rw [List.reverse_cons]
    exact e _ _ ih

theorem reports_append (h : List Op) (o : Op) :
    reports (h ++ [o]) = if (step (run h) o).2 then reports h ++ [(step (run h) o).1.system] else reports h := by
  rw [reports, List.foldl_append, reports_fold]
  rfl

theorem step_unchanged (t : Tracker) (o : Op) (h : ¬ (step t o).2 = true) : (step t o).1.system = t.system := by
  cases o with
  | update p s =>
    rw [step] at h ⊢
    dsimp only at h ⊢
    unfold Tracker.update at h ⊢
    dsimp only at h ⊢
    split at h
    · rename_i hs
      rw [if_pos hs]
      dsimp only
      split <;> rfl
    · rename_i hs
      rw [if_neg hs]
      split at h
      · rename_i ho; rw [if_pos ho]
      · rename_i ho
        rw [if_neg ho]
        split at h
        · rename_i hos; rw [if_pos hos]; rfl
        · rename_i hos
          rw [if_neg hos]
          split at h
          · rename_i hr
            rw [if_pos hr]
            simp only [decide_eq_true_eq, Decidable.not_not, ne_eq] at h
            exact h.symm
          · rename_i hr; rw [if_neg hr]; rfl
  | remove p =>
    rw [step] at h ⊢
    unfold Tracker.remove at h ⊢
    split
    · rfl
    · rename_i hn
      rw [if_neg hn] at h
      simp only [decide_eq_true_eq, Decidable.not_not, ne_eq] at h
      exact h.symm
  | require names =>
    rw [step] at h ⊢
    unfold Tracker.require at h ⊢
    simp only [decide_eq_true_eq, Decidable.not_not, ne_eq] at h
    exact h.symm

/-- The user knows the tracker's system state. -/
theorem systemState_run (h : List Op) : systemState h = (run h).system := by
  rw [← List.reverse_reverse h]
  induction h.reverse with
  | nil => rfl
  | cons o h ih =>
    rw [List.reverse_cons, systemState, reports_append, run_append]
    split
    · simp
    · rename_i hc
      rw [step_unchanged _ _ hc, ← ih]
      rfl

/-! ### Unanimity -/

theorem firstOf_cons (t : Tracker) (s : ParticipantState) (hs : s ≠ .invalid) (h : ∀ p ∈ t.required, t.status p = some s) : t.compute s = s := by
  have all : ∀ l, s ∈ l → t.allIn l = true := fun l hl => (allIn_iff t l).mpr fun p hp => ⟨s, hl, h p hp⟩
  cases s with
  | invalid => exact absurd rfl hs
  | error => rfl
  | aborting => rfl
  | _ => simp only [Tracker.compute, alternatives, Tracker.firstOf]; rw [if_pos (all _ (by simp))]

/-- All required participants agree on a state and it is the system state. -/
def Unanimous (t : Tracker) : Prop :=
  ∀ s, t.required ≠ [] → s ≠ .invalid → (∀ p ∈ t.required, t.status p = some s) → t.system = s

theorem unanimous_anyRequired (t : Tracker) : Unanimous { t with system := t.compute t.anyRequired } := by
  intro s hne hs hall
  change t.required ≠ [] at hne
  change ∀ p ∈ t.required, t.status p = some s at hall
  change t.compute t.anyRequired = s
  have : t.anyRequired = s := by
    unfold Tracker.anyRequired
    split
    · rename_i h; exact absurd h hne
    · rename_i p rest hr
      rw [hall p (by rw [hr]; simp)]; rfl
  rw [this]
  exact firstOf_cons t s hs hall

theorem step_unanimous (t : Tracker) (o : Op) (h : Unanimous t) : Unanimous (step t o).1 := by
  cases o with
  | require names => exact unanimous_anyRequired { t with required := names }
  | remove p =>
    rw [step]
    unfold Tracker.remove
    split
    · exact h
    · exact unanimous_anyRequired { t with cache := t.cache.filter (fun e => e.1 ≠ p) }
  | update p s =>
    rw [step]
    dsimp only
    unfold Tracker.update
    dsimp only
    split
    · dsimp only
      split
      · rename_i hn
        intro x hne hx hall
        refine h x hne hx fun q hq => ?_
        have := hall q hq
        rw [status_setStatus] at this
        split at this
        · exact absurd (Option.some.inj this).symm hx
        · exact this
      · exact h
    · split
      · exact h
      · split
        · rename_i hos
          intro x hne hx hall
          refine h x hne hx fun q hq => ?_
          have := hall q hq
          rw [status_setStatus] at this
          split at this
          · rename_i hpq
            subst hpq
            rcases hst : t.status p with _ | y
            · rw [hst] at hos
              simp only [Option.getD_none] at hos
              exact absurd (by rw [← Option.some.inj this, ← hos]) hx
            · rw [hst] at hos
              simp only [Option.getD_some] at hos
              rw [hos]; exact this
          · exact this
        · split
          · rename_i hr
            intro x hne hx hall
            have hp := hall p (by simpa using hr)
            have hp' : (t.setStatus p s).status p = some x := hp
            rw [status_setStatus, if_pos rfl] at hp'
            cases hp'
            exact firstOf_cons _ s hx hall
          · rename_i hr
            intro x hne hx hall
            refine h x hne hx fun q hq => ?_
            have := hall q hq
            rw [status_setStatus, if_neg] at this
            · exact this
            · rintro rfl
              exact hr (by simpa [Tracker.setStatus] using hq)

theorem run_unanimous (h : List Op) : Unanimous (run h) := by
  rw [← List.reverse_reverse h]
  induction h.reverse with
  | nil => intro s hne; exact absurd rfl hne
  | cons o h ih => rw [List.reverse_cons, run_append]; exact step_unanimous _ _ ih

/-! ### Participants that are not required -/

theorem update_not_required (t : Tracker) (p : String) (s : ParticipantState) (hp : p ∉ t.required) :
    (t.update p s).systemChanged = false ∧ (t.update p s).tracker.system = t.system := by
  unfold Tracker.update
  dsimp only
  split
  · dsimp only; exact ⟨rfl, by split <;> rfl⟩
  · split
    · exact ⟨rfl, rfl⟩
    · split
      · exact ⟨rfl, rfl⟩
      · split
        · rename_i hr; exact absurd (by simpa [Tracker.setStatus] using hr) hp
        · exact ⟨rfl, rfl⟩

theorem allIn_congr (t u : Tracker) (l : List ParticipantState) (hr : t.required = u.required)
    (hs : ∀ p ∈ t.required, t.status p = u.status p) : t.allIn l = u.allIn l := by
  rw [Bool.eq_iff_iff, allIn_iff, allIn_iff, ← hr]
  exact forall_congr' fun p => forall_congr' fun hp => by rw [hs p hp]

theorem firstOf_congr (t u : Tracker) (l) (hr : t.required = u.required) (hb : t.base = u.base)
    (hs : ∀ p ∈ t.required, t.status p = u.status p) : t.firstOf l = u.firstOf l := by
  induction l with
  | nil => exact hb
  | cons a l ih => rw [Tracker.firstOf, Tracker.firstOf, allIn_congr t u _ hr hs, ih]

theorem compute_congr (t u : Tracker) (s : ParticipantState) (hr : t.required = u.required) (hb : t.base = u.base)
    (hs : ∀ p ∈ t.required, t.status p = u.status p) : t.compute s = u.compute s := by
  cases s with
  | error => rfl
  | aborting => rfl
  | _ => exact firstOf_congr t u _ hr hb hs

theorem update_congr (t u : Tracker) (p : String) (s : ParticipantState) (hp : p ∈ t.required) (hr : t.required = u.required)
    (hsys : t.system = u.system) (hs : ∀ q ∈ t.required, t.status q = u.status q) :
    (t.update p s).tracker.system = (u.update p s).tracker.system := by
  have hp' : p ∈ u.required := hr ▸ hp
  have hst := hs p hp
  unfold Tracker.update
  dsimp only
  rw [← hst]
  split
  · dsimp only; split <;> exact hsys
  · split
    · exact hsys
    · split
      · exact hsys
      · have h1 : (t.setStatus p s).required.contains p = true := by simpa [Tracker.setStatus] using hp
        have h2 : (u.setStatus p s).required.contains p = true := by simpa [Tracker.setStatus] using hp'
        rw [if_pos h1, if_pos h2]
        refine compute_congr _ _ _ hr ?_ ?_
        · rw [base_of_status _ p s (by rw [status_setStatus, if_pos rfl]), base_of_status _ p s (by rw [status_setStatus, if_pos rfl])]
          exact hsys
        · intro q hq
          rw [status_setStatus, status_setStatus, hs q hq]

/-! ### The monitor -/

theorem monitor_append (h : List Event) (e : Event) :
    monitor (h ++ [e]) = (((monitor h).1.on e).1, (monitor h).2 ++ ((monitor h).1.on e).2) := by simp [monitor]

theorem received_append (h : List Event) (e : Event) (p : String) :
    received (h ++ [e]) p = match e with
      | .status q s => if q = p then (if received h p = some .shutdown then received h p
          else if s = .invalid then some ((received h p).getD .invalid) else some s) else received h p
      | .disconnected q => if q = p then none else received h p
      | _ => received h p := by
  simp only [received, List.foldl_append, List.foldl_cons, List.foldl_nil]
  cases e <;> rfl

theorem requiredOf_append (h : List Event) (e : Event) :
    requiredOf (h ++ [e]) = match e with | .workflow names => names | _ => requiredOf h := by
  simp only [requiredOf, List.foldl_append, List.foldl_cons, List.foldl_nil]
  cases e <;> rfl

def opsOne (h : List Event) : Event → List Op
  | .status p s => [.update p s]
  | .workflow names => [.require names]
  | .connected _ => []
  | .disconnected p =>
    if received h p ∈ [none, some .invalid, some .shutdown] then [.remove p] else [.update p .error, .remove p]

theorem opsFrom_append (b h : List Event) (e : Event) : opsFrom b (h ++ [e]) = opsFrom b h ++ opsOne (b ++ h) e := by
  induction h generalizing b with
  | nil => cases e <;> simp [opsFrom, opsOne]
  | cons x h ih => cases x <;> simp [opsFrom, ih]

theorem ops_append (h : List Event) (e : Event) : ops (h ++ [e]) = ops h ++ opsOne h e := by
  rw [ops, opsFrom_append]; rfl

theorem current_ops (h : List Event) (p : String) : current (ops h) p = received h p := by
  rw [← List.reverse_reverse h]
  induction h.reverse with
  | nil => rfl
  | cons e h ih =>
    rw [List.reverse_cons, ops_append, received_append]
    cases e with
    | status q s => rw [opsOne, current_append]; dsimp only; rw [ih]
    | workflow names => rw [opsOne, current_append]; exact ih
    | connected q => rw [opsOne, List.append_nil]; exact ih
    | disconnected q =>
      rw [opsOne]
      dsimp only
      split
      · rw [current_append]; dsimp only; rw [ih]
      · rw [show ∀ l : List Op, l ++ [Op.update q .error, .remove q] = (l ++ [.update q .error]) ++ [.remove q] by simp,
          current_append]
        dsimp only
        rw [current_append]
        dsimp only
        split
        · rfl
        · rw [ih]

theorem required_ops (h : List Event) : required (ops h) = requiredOf h := by
  rw [← List.reverse_reverse h]
  induction h.reverse with
  | nil => rfl
  | cons e h ih =>
    rw [List.reverse_cons, ops_append, requiredOf_append]
    cases e with
    | status q s => rw [opsOne, required_append]; exact ih
    | workflow names => rw [opsOne, required_append]
    | connected q => rw [opsOne, List.append_nil]; exact ih
    | disconnected q =>
      rw [opsOne]
      dsimp only
      split
      · rw [required_append]; exact ih
      · rw [show ∀ l : List Op, l ++ [Op.update q .error, .remove q] = (l ++ [.update q .error]) ++ [.remove q] by simp,
          required_append]
        dsimp only
        rw [required_append]
        exact ih

theorem systemReports_append (a b : List Out) : systemReports (a ++ b) = systemReports a ++ systemReports b := by
  simp [systemReports]

theorem receive_eq (m : Monitor) (p : String) (s : ParticipantState) :
    (m.receive p s).1.tracker = (step m.tracker (.update p s)).1 ∧
    systemReports (m.receive p s).2 = if (step m.tracker (.update p s)).2 then [(step m.tracker (.update p s)).1.system] else [] := by
  refine ⟨rfl, ?_⟩
  rw [Monitor.receive, step]
  dsimp only
  rw [systemReports_append, systemReports_append]
  cases (m.tracker.update p s).throws <;> cases (m.tracker.update p s).participantChanged <;>
    cases (m.tracker.update p s).systemChanged <;> simp [systemReports]

theorem forget_eq (m : Monitor) (p : String) :
    (m.forget p).1.tracker = (step m.tracker (.remove p)).1 ∧
    systemReports (m.forget p).2 = if (step m.tracker (.remove p)).2 then [(step m.tracker (.remove p)).1.system] else [] := by
  refine ⟨rfl, ?_⟩
  rw [Monitor.forget, step]
  dsimp only
  rw [systemReports_append]
  cases (m.tracker.remove p).2 <;> simp [systemReports]

theorem reportCrash_eq (m : Monitor) (p : String) :
    m.reportCrash p = if m.tracker.status p ∈ [none, some .invalid, some .shutdown] then (m, []) else m.receive p .error := by
  unfold Monitor.reportCrash
  rcases m.tracker.status p with _ | s
  · simp
  · cases s <;> simp

/-- The monitor's tracker and its reports. -/
theorem monitor_ops (h : List Event) :
    (monitor h).1.tracker = run (ops h) ∧ systemReports (monitor h).2 = reports (ops h) := by
  rw [← List.reverse_reverse h]
  induction h.reverse with
  | nil => exact ⟨rfl, rfl⟩
  | cons e h ih =>
    obtain ⟨ih1, ih2⟩ := ih
    rw [List.reverse_cons, monitor_append, ops_append]
    generalize h.reverse = h at *
    have hstat : ∀ p, (monitor h).1.tracker.status p = received h p := fun p => by
      rw [ih1, (run_knows _).1, current_ops]
    dsimp only
    rw [systemReports_append, ih2]
    cases e with
    | status p s =>
      rw [opsOne, run_append, reports_append, ← ih1]
      refine ⟨rfl, ?_⟩
      rw [show (monitor h).1.on (.status p s) = (monitor h).1.receive p s from rfl, (receive_eq _ p s).2]
      split <;> simp
    | workflow names =>
      rw [opsOne, run_append, reports_append, ← ih1]
      refine ⟨rfl, ?_⟩
      rw [show (monitor h).1.on (.workflow names) = (monitor h).1.workflow names from rfl, Monitor.workflow, step]
      dsimp only
      split
      · simp [systemReports]
      · simp [systemReports]
    | connected p =>
      rw [opsOne, List.append_nil, ← ih1]
      rw [show (monitor h).1.on (.connected p) = (monitor h).1.onConnected p from rfl, Monitor.onConnected]
      split
      · exact ⟨rfl, by simp [systemReports]⟩
      · exact ⟨rfl, by simp [systemReports]⟩
    | disconnected p =>
      rw [show (monitor h).1.on (.disconnected p) = ((((monitor h).1.reportCrash p).1.forget p).1,
        ((monitor h).1.reportCrash p).2 ++ (((monitor h).1.reportCrash p).1.forget p).2) from rfl]
      dsimp only
      rw [systemReports_append, (forget_eq _ p).1, (forget_eq _ p).2, reportCrash_eq, hstat, opsOne]
      split
      · dsimp only
        rw [run_append, reports_append, ← ih1]
        refine ⟨rfl, ?_⟩
        split <;> simp [systemReports]
      · rw [(receive_eq _ p .error).1, (receive_eq _ p .error).2,
          show ∀ l : List Op, l ++ [Op.update p .error, .remove p] = (l ++ [.update p .error]) ++ [.remove p] by simp,
          run_append, reports_append, run_append, reports_append, ← ih1]
        refine ⟨rfl, ?_⟩
        split <;> split <;> simp

/-! ### Reports on a participant -/

theorem statusReport_append (a b : List Out) (p : String) :
    statusReport (a ++ b) p = (statusReport b p).or (statusReport a p) := by
  simp [statusReport, List.filterMap_append, List.getLast?_append]

theorem receive_report (m : Monitor) (p q : String) (s : ParticipantState) :
    statusReport (m.receive p s).2 q = if p = q ∧ s ≠ .invalid ∧ (m.tracker.status p).getD .invalid ≠ .shutdown ∧
      (m.tracker.status p).getD .invalid ≠ s then some s else none := by
  rw [Monitor.receive]
  have hx : ∀ b : Bool, ∀ x : ParticipantState, statusReport (if b then [Out.systemState x] else []) q = none := by
    intro b x; cases b <;> rfl
  have hy : ∀ b : Bool, statusReport (if b then [Out.exception] else []) q = none := by intro b; cases b <;> rfl
  dsimp only
  rw [statusReport_append, statusReport_append, hx, hy]
  unfold Tracker.update
  dsimp only
  split
  · rename_i h; simp [h, statusReport]
  · rename_i h
    split
    · rename_i h2; simp [h2, statusReport]
    · rename_i h2
      split
      · rename_i h3; simp [h3, statusReport]
      · rename_i h3
        split
        · by_cases hpq : p = q
          · subst hpq; simp [h, h2, h3, statusReport]
          · simp [statusReport, hpq]
        · by_cases hpq : p = q
          · subst hpq; simp [h, h2, h3, statusReport]
          · simp [statusReport, hpq]

theorem forget_report (m : Monitor) (p q : String) : statusReport (m.forget p).2 q = none := by
  rw [Monitor.forget]
  dsimp only
  cases (m.tracker.remove p).2 <;> simp [statusReport]

/-- The handlers have been told the state of every participant. -/
theorem statusReport_monitor (h : List Event) (p : String) (s : ParticipantState) (hs : s ≠ .invalid)
    (hr : received h p = some s) : statusReport (monitor h).2 p = some s := by
  have main : ∀ h : List Event, ∀ s, s ≠ .invalid → received h p = some s → statusReport (monitor h).2 p = some s := by
    intro h
    rw [← List.reverse_reverse h]
    induction h.reverse with
    | nil => intro s _ hr; cases hr
    | cons e h ih =>
      intro s hs hr
      rw [List.reverse_cons] at hr ⊢
      generalize h.reverse = h at *
      have hstat : ∀ p, (monitor h).1.tracker.status p = received h p := fun p => by
        rw [(monitor_ops h).1, (run_knows _).1, current_ops]
      rw [monitor_append]
      dsimp only
      rw [statusReport_append]
      rw [received_append] at hr
      cases e with
      | workflow names =>
        rw [ih s hs hr, show (monitor h).1.on (.workflow names) = (monitor h).1.workflow names from rfl, Monitor.workflow]
        dsimp only
        split <;> simp [statusReport]
      | connected q =>
        rw [ih s hs hr, show (monitor h).1.on (.connected q) = (monitor h).1.onConnected q from rfl, Monitor.onConnected]
        split <;> simp [statusReport]
      | status q x =>
        rw [show (monitor h).1.on (.status q x) = (monitor h).1.receive q x from rfl, receive_report, hstat]
        dsimp only at hr
        split at hr
        · rename_i hqp
          subst hqp
          split at hr
          · rename_i h1
            rw [h1]
            simp only [Option.getD_some, ne_eq, not_true_eq_false, false_and, and_false, if_false]
            exact ih s hs hr
          · rename_i h1
            split at hr
            · rename_i h2
              subst h2
              simp only [ne_eq, not_true_eq_false, false_and, and_false, if_false]
              rcases hc : received h q with _ | y
              · rw [hc] at hr; exact absurd (Option.some.inj hr).symm hs
              · rw [hc] at hr; exact ih s hs (hc.trans hr)
            · rename_i h2
              cases hr
              by_cases h3 : (received h q).getD .invalid = s
              · rcases hc : received h q with _ | y
                · rw [hc] at h3; exact absurd h3.symm h2
                · rw [hc] at h3
                  simp only [Option.getD_some] at h3
                  subst h3
                  rw [if_neg (by simp)]
                  exact ih y hs hc
              · rw [if_pos]
                · rfl
                · refine ⟨rfl, h2, ?_, h3⟩
                  intro h4
                  rcases hc : received h q with _ | y
                  · rw [hc] at h4; cases h4
                  · rw [hc] at h4 h1; exact h1 (by simpa using h4)
        · rename_i hqp
          rw [if_neg (fun hh => hqp hh.1)]
          exact ih s hs hr
      | disconnected q =>
        dsimp only at hr
        split at hr
        · cases hr
        · rename_i hqp
          rw [show (monitor h).1.on (.disconnected q) = ((((monitor h).1.reportCrash q).1.forget q).1,
            ((monitor h).1.reportCrash q).2 ++ (((monitor h).1.reportCrash q).1.forget q).2) from rfl]
          dsimp only
          rw [statusReport_append, forget_report, reportCrash_eq]
          split
          · exact ih s hs hr
          · rw [receive_report, if_neg (fun hh => hqp hh.1)]
            exact ih s hs hr
  exact main h s hs hr

/-! ## Presence -/

theorem newsFrom_snoc (b : Bool) (l : List Bool) (x : Bool) :
    newsFrom b (l ++ [x]) = newsFrom b l ++ (if x && l.getLastD b then [] else [x]) := by
  induction l generalizing b with
  | nil => cases b <;> cases x <;> rfl
  | cons y l ih =>
    have hl : (y :: l).getLastD b = l.getLastD y := by cases l <;> rfl
    rw [List.cons_append, hl]
    cases b <;> cases y <;> simp [newsFrom, ih]

theorem receive_presence (m : Monitor) (q : String) (s : ParticipantState) (p : String) :
    (m.receive q s).1.connected = m.connected ∧ presenceReports (m.receive q s).2 p = [] := by
  refine ⟨rfl, ?_⟩
  unfold Monitor.receive
  dsimp only
  split <;> split <;> split <;> rfl

theorem presenceReports_append (a b : List Out) (p : String) : presenceReports (a ++ b) p = presenceReports a p ++ presenceReports b p := by
  simp only [presenceReports, List.filterMap_append]

theorem presence_monitor (h : List Event) (p : String) :
    (p ∈ (monitor h).1.connected ↔ (presence h p).getLastD false = true) ∧ presenceReports (monitor h).2 p = newsFrom false (presence h p) := by
  rw [← List.reverse_reverse h]
  induction h.reverse with
  | nil => exact ⟨by simp [monitor, presence], rfl⟩
  | cons e h ih =>
    rw [List.reverse_cons, monitor_append]
    generalize h.reverse = h at *
    have hp : presence (h ++ [e]) p = presence h p ++ presence [e] p := by simp only [presence, List.filterMap_append]
    rw [hp]
    dsimp only
    rw [presenceReports_append, ih.2]
    have same : ∀ (m : Monitor) (o : List Out), m.connected = (monitor h).1.connected → presenceReports o p = [] →
        (p ∈ m.connected ↔ (presence h p ++ []).getLastD false = true) ∧ newsFrom false (presence h p) ++ presenceReports o p = newsFrom false (presence h p ++ []) := by
      intro m o h1 h2
      rw [h1, h2, List.append_nil, List.append_nil]
      exact ⟨ih.1, rfl⟩
    cases e with
    | status q s => exact same _ _ (receive_presence _ q s p).1 (receive_presence _ q s p).2
    | workflow names =>
      refine same _ _ rfl ?_
      show presenceReports ((monitor h).1.workflow names).2 p = []
      unfold Monitor.workflow
      dsimp only
      split <;> rfl
    | connected q =>
      show (p ∈ ((monitor h).1.onConnected q).1.connected ↔ _) ∧ newsFrom false (presence h p) ++ presenceReports ((monitor h).1.onConnected q).2 p = _
      by_cases hq : q = p
      · subst hq
        have e1 : presence [.connected q] q = [true] := by simp [presence]
        rw [e1, newsFrom_snoc]
        unfold Monitor.onConnected
        by_cases hc : q ∈ (monitor h).1.connected
        · rw [if_pos (by simpa using hc), ih.1.1 hc]
          exact ⟨by simp [hc], rfl⟩
        · have hf : (presence h q).getLastD false = false := by
            cases hv : (presence h q).getLastD false
            · rfl
            · exact absurd (ih.1.2 hv) hc
          rw [if_neg (by simpa using hc), hf]
          exact ⟨by simp, by simp [presenceReports]⟩
      · have e1 : presence [.connected q] p = [] := by simp [presence, hq]
        rw [e1]
        unfold Monitor.onConnected
        split
        · exact same _ _ rfl rfl
        · rw [List.append_nil]
          refine ⟨?_, by simp [presenceReports, hq]⟩
          rw [← ih.1]
          simp [Ne.symm hq]
    | disconnected q =>
      have hr : ((monitor h).1.reportCrash q).1.connected = (monitor h).1.connected ∧ presenceReports ((monitor h).1.reportCrash q).2 p = [] := by
        rw [reportCrash_eq]
        split
        · exact ⟨rfl, rfl⟩
        · exact receive_presence _ q _ p
      show (p ∈ (((monitor h).1.reportCrash q).1.forget q).1.connected ↔ _) ∧
        newsFrom false (presence h p) ++ presenceReports (((monitor h).1.reportCrash q).2 ++ (((monitor h).1.reportCrash q).1.forget q).2) p = _
      have hf : (((monitor h).1.reportCrash q).1.forget q).1.connected = (monitor h).1.connected.filter (· ≠ q) := by rw [← hr.1]; rfl
      have ho : presenceReports (((monitor h).1.reportCrash q).1.forget q).2 p = if q = p then [false] else [] := by
        unfold Monitor.forget
        dsimp only
        rw [presenceReports_append]
        have : presenceReports (if (((monitor h).1.reportCrash q).1.tracker.remove q).2 then [Out.systemState (((monitor h).1.reportCrash q).1.tracker.remove q).1.system] else []) p = [] := by
          split <;> rfl
        rw [this]
        by_cases hq : q = p <;> simp [presenceReports, hq]
      rw [presenceReports_append, hr.2, ho, hf, List.nil_append]
      by_cases hq : q = p
      · subst hq
        have e1 : presence [.disconnected q] q = [false] := by simp [presence]
        rw [e1, newsFrom_snoc, if_pos rfl]
        exact ⟨by simp, rfl⟩
      · have e1 : presence [.disconnected q] p = [] := by simp [presence, hq]
        rw [e1, if_neg hq, List.append_nil, List.append_nil]
        refine ⟨?_, rfl⟩
        rw [← ih.1]
        simp [Ne.symm hq]

end SilKit.SystemState
