import Verif.Spec.AutonomousCheck
/-!
# Lemmas about the check of autonomous participants (C81)
-/
namespace SilKit.AutonomousCheck
open SilKit.AutonomousCheck.Spec

theorem snoc_induction {α : Type} {P : List α → Prop} (h0 : P []) (h1 : ∀ l x, P l → P (l ++ [x])) (l : List α) : P l := by
  have : ∀ l : List α, P l.reverse := by
    intro l
    induction l with
    | nil => exact h0
    | cons x l ih => rw [List.reverse_cons]; exact h1 _ _ ih
  have := this l.reverse
  rwa [List.reverse_reverse] at this

theorem run_snoc (own : String) (ops : List Op) (op : Op) :
    run own (ops ++ [op]) = ((step own (run own ops).1 op).1, (run own ops).2 ++ (step own (run own ops).1 op).2) := by
  simp only [run, List.foldl_append, List.foldl_cons, List.foldl_nil]

theorem present_snoc {tr : List Out} {o : Out} {q : String} (h : Present (tr ++ [o]) q) : o = .seen q ∨ (Present tr q ∧ o ≠ .gone q) := by
  obtain ⟨a, b, e, hb⟩ := h
  rcases b.eq_nil_or_concat with rfl | ⟨b', z, rfl⟩
  · left
    have := List.append_inj' e rfl
    simpa using this.2
  · right
    simp only [List.concat_eq_append] at e hb
    have e : tr ++ [o] = (a ++ .seen q :: b') ++ [z] := by simpa using e
    have := List.append_inj' e rfl
    have hz : o = z := by simpa using this.2
    refine ⟨⟨a, b', this.1, fun h => hb (by simp [h])⟩, fun h => hb (by simp [← hz, h])⟩

theorem present_append {tr o : List Out} {q : String} (h : Present (tr ++ o) q) : .seen q ∈ o ∨ (Present tr q ∧ .gone q ∉ o) := by
  induction o using snoc_induction with
  | h0 => rw [List.append_nil] at h; exact .inr ⟨h, by simp⟩
  | h1 o x ih =>
    rw [← List.append_assoc] at h
    rcases present_snoc h with h1 | ⟨h1, h2⟩
    · left; simp [h1]
    · rcases ih h1 with h3 | ⟨h3, h4⟩
      · left; simp [h3]
      · right; exact ⟨h3, by simp only [List.mem_append, List.mem_singleton, not_or]; exact ⟨h4, fun e => h2 e.symm⟩⟩

/-- What is known in the usual case. -/
structure Inv (aut : Bool) (cap : String → Bool) (n : Nat) (s : State) (tr : List Out) : Prop where
  autonomous : s.autonomous = (decide (1 ≤ n) && aut)
  timeSync : s.timeSync = decide (2 ≤ n)
  started : s.started = decide (3 ≤ n)
  syncing : s.syncing = decide (3 ≤ n)
  peers : ∀ q c, s.peers q = some c → c = cap q
  requested : .requested ∈ tr → s.started = true
  safe : aut = true → .requested ∈ tr → (∃ r, .aborted r ∈ tr) ∨ ∀ q, q ∈ s.synced ∨ s.pending = some q → cap q = true
  present : ∀ q, Present tr q → q ∈ s.synced ∨ s.pending = some q ∨ ∃ r, .aborted r ∈ tr

/-- The calls of the user, one by one. -/
theorem usual_step {aut : Bool} {ops : List Op} {op : Op} (h : Usual aut (ops ++ [op])) :
    Usual aut ops ∧ (((∃ a, op = .configure a) ∨ op = .createTimeSync ∨ op = .startLifecycle) →
      (userCalls (ops ++ [op])).length = (userCalls ops).length + 1 ∧ [Op.configure aut, .createTimeSync, .startLifecycle][(userCalls ops).length]? = some op) ∧
    (¬ ((∃ a, op = .configure a) ∨ op = .createTimeSync ∨ op = .startLifecycle) → userCalls (ops ++ [op]) = userCalls ops) := by
  have e : userCalls (ops ++ [op]) = userCalls ops ++ userCalls [op] := by simp only [userCalls, List.filter_append]
  unfold Usual at h
  rw [e] at h
  have h0 : Usual aut ops := ⟨userCalls [op] ++ h.choose, by rw [← List.append_assoc]; exact h.choose_spec⟩
  refine ⟨h0, fun hu => ?_, fun hu => ?_⟩
  · have e1 : userCalls [op] = [op] := by rcases hu with ⟨a, rfl⟩ | rfl | rfl <;> rfl
    rw [e1] at h
    rw [e, e1]
    refine ⟨by simp, ?_⟩
    obtain ⟨t, ht⟩ := h
    rw [← ht]
    simp
  · have e1 : userCalls [op] = [] := by
      cases op with
      | configure a => exact absurd (.inl ⟨a, rfl⟩) hu
      | createTimeSync => exact absurd (.inr (.inl rfl)) hu
      | startLifecycle => exact absurd (.inr (.inr rfl)) hu
      | _ => rfl
    rw [e, e1, List.append_nil]

theorem lacks_of {aut : Bool} {cap : String → Bool} {n : Nat} {s : State} {tr : List Out} (h : Inv aut cap n s tr) (q : String) (hn : 3 ≤ n) (ha : aut = true) (hq : s.lacks q = false) :
    cap q = true := by
  have h1 : s.peers q = some true := by
    simpa [State.lacks, h.autonomous, h.timeSync, ha, show 1 ≤ n by omega, show 2 ≤ n by omega] using hq
  exact (h.peers q true h1).symm

theorem inv_run (own : String) (aut : Bool) (cap : String → Bool) (ops : List Op) (hu : Usual aut ops) (hc : Capable cap ops) :
    Inv aut cap (userCalls ops).length (run own ops).1 (run own ops).2 := by
  induction ops using snoc_induction with
  | h0 => exact ⟨rfl, rfl, rfl, rfl, fun q c h => (by cases h), fun h => (by cases h), fun _ h => (by cases h), fun q h => (by obtain ⟨a, b, e, _⟩ := h; simp [run] at e)⟩
  | h1 ops op ih =>
    obtain ⟨hu0, huser, hother⟩ := usual_step hu
    have ih := ih hu0 (fun q c h => hc q c (by simp [h]))
    rw [run_snoc]
    generalize (run own ops).1 = s at ih ⊢
    generalize (run own ops).2 = tr at ih ⊢
    cases op with
    | configure a =>
      obtain ⟨h1, h2⟩ := huser (.inl ⟨a, rfl⟩)
      have hn : (userCalls ops).length = 0 := by
        rcases hl : (userCalls ops).length with _ | _ | _ | k <;> rw [hl] at h2 <;> simp at h2 <;> rfl
      rw [hn] at h2 ih
      simp at h2
      subst h2
      rw [h1, hn]
      simp only [step, List.append_nil]
      exact ⟨by simp, ih.timeSync, ih.started, ih.syncing, ih.peers, ih.requested, ih.safe, ih.present⟩
    | createTimeSync =>
      obtain ⟨h1, h2⟩ := huser (.inr (.inl rfl))
      have hn : (userCalls ops).length = 1 := by
        rcases hl : (userCalls ops).length with _ | _ | _ | k <;> rw [hl] at h2 <;> simp at h2 <;> rfl
      rw [h1, hn]
      rw [hn] at ih
      simp only [step, List.append_nil]
      exact ⟨ih.autonomous, rfl, ih.started, ih.syncing, ih.peers, ih.requested, ih.safe, ih.present⟩
    | startLifecycle =>
      obtain ⟨h1, h2⟩ := huser (.inr (.inr rfl))
      have hn : (userCalls ops).length = 2 := by
        rcases hl : (userCalls ops).length with _ | _ | _ | k <;> rw [hl] at h2 <;> simp at h2 <;> rfl
      rw [h1, hn]
      rw [hn] at ih
      have hs : s.started = false := ih.started
      simp only [step, hs, Bool.false_eq_true, if_false, List.append_nil]
      exact ⟨ih.autonomous, ih.timeSync, rfl, ih.timeSync, ih.peers, fun _ => rfl, ih.safe, ih.present⟩
    | peer q c =>
      rw [hother (by simp)]
      simp only [step, List.append_nil]
      refine ⟨ih.autonomous, ih.timeSync, ih.started, ih.syncing, fun x c' hx => ?_, ih.requested, ih.safe, ih.present⟩
      dsimp only at hx
      split at hx
      · rename_i e
        subst e
        have := hc x c (by simp)
        rw [this] at hx
        injection hx with hx
        exact hx.symm
      · exact ih.peers x c' hx
    | discover q active =>
      rw [hother (by simp)]
      dsimp only [step]
      split
      · rw [List.append_nil]; exact ih
      · split
        · exact ⟨ih.autonomous, ih.timeSync, ih.started, ih.syncing, ih.peers, fun h => ih.requested (by simpa using h), fun _ _ => .inl ⟨q, by simp⟩, fun _ _ => .inr (.inr ⟨q, by simp⟩)⟩
        · rename_i hp hl
          refine ⟨ih.autonomous, ih.timeSync, ih.started, ih.syncing, ih.peers, fun h => ih.requested (by simpa using h), fun ha h => ?_, fun x hx => ?_⟩
          · have h : .requested ∈ tr := by simpa using h
            rcases ih.safe ha h with ⟨r, hr⟩ | hs
            · exact .inl ⟨r, by simp [hr]⟩
            · right
              intro x hx
              rcases hx with hx | hx
              · exact hs x (.inl hx)
              · injection hx with hx
                subst hx
                refine lacks_of ih q ?_ ha (by simpa using hl)
                have := ih.requested h
                rw [ih.started] at this
                simpa using this
          · rcases present_append hx with h | ⟨h, _⟩
            · have : x = q := by simpa using h
              subst this
              exact .inr (.inl rfl)
            · rcases ih.present x h with h | h | ⟨r, h⟩
              · exact .inl h
              · exact absurd (.inl (by rw [h]; simp)) hp
              · exact .inr (.inr ⟨r, by simp [h]⟩)
    | finish =>
      rw [hother (by simp)]
      dsimp only [step]
      split
      · rw [List.append_nil]; exact ih
      · rename_i q hp
        rw [List.append_nil]
        have hmem : ∀ x, x ∈ (if q ∈ s.synced then s.synced else q :: s.synced) ↔ x ∈ s.synced ∨ x = q := by
          intro x
          split
          · rename_i h
            exact ⟨.inl, fun h' => by rcases h' with h' | rfl; exact h'; exact h⟩
          · rw [List.mem_cons]; exact or_comm
        refine ⟨ih.autonomous, ih.timeSync, ih.started, ih.syncing, ih.peers, ih.requested, fun ha h => ?_, fun x hx => ?_⟩
        · rcases ih.safe ha h with h | h
          · exact .inl h
          · right
            intro x hx
            rcases hx with hx | hx
            · rcases (hmem x).1 hx with hx | rfl
              · exact h x (.inl hx)
              · exact h x (.inr hp)
            · cases hx
        · rcases ih.present x hx with h | h | h
          · exact .inl ((hmem x).2 (.inl h))
          · rw [hp] at h; injection h with h; exact .inl ((hmem x).2 (.inr h.symm))
          · exact .inr (.inr h)
    | remove q =>
      rw [hother (by simp)]
      dsimp only [step]
      split
      · rw [List.append_nil]; exact ih
      · refine ⟨ih.autonomous, ih.timeSync, ih.started, ih.syncing, ih.peers, fun h => ih.requested (by simpa using h), fun ha h => ?_, fun x hx => ?_⟩
        · rcases ih.safe ha (by simpa using h) with ⟨r, hr⟩ | h
          · exact .inl ⟨r, by simp [hr]⟩
          · right
            intro x hx
            rcases hx with hx | hx
            · exact h x (.inl (List.mem_filter.1 hx).1)
            · exact h x (.inr hx)
        · rcases present_append hx with h | ⟨h, h'⟩
          · simp at h
          · have hn : x ≠ q := by rintro rfl; exact h' (by simp)
            rcases ih.present x h with h | h | ⟨r, h⟩
            · exact .inl (List.mem_filter.2 ⟨h, by simpa using hn⟩)
            · exact .inr (.inl h)
            · exact .inr (.inr ⟨r, by simp [h]⟩)
    | startTime =>
      rw [hother (by simp)]
      dsimp only [step]
      split
      · rw [List.append_nil]; exact ih
      · rename_i hp
        have hs : s.started = true := by cases h : s.started; exact absurd (.inr h) hp; rfl
        have hn : 3 ≤ (userCalls ops).length := by rw [ih.started] at hs; simpa using hs
        have hsy : s.syncing = true := by rw [ih.syncing]; simpa using hn
        rw [if_pos hsy]
        have hpen : s.pending = none := by cases h : s.pending; rfl; exact absurd (.inl (by simp [h])) hp
        refine ⟨ih.autonomous, ih.timeSync, ih.started, ih.syncing, ih.peers, fun _ => hs, fun ha _ => ?_, fun x hx => ?_⟩
        · cases hf : s.synced.filter s.lacks with
          | cons r l => exact .inl ⟨r, by simp⟩
          | nil =>
            right
            intro x hx
            rcases hx with hx | hx
            · refine lacks_of ih x hn ha ?_
              have := List.filter_eq_nil_iff.1 hf x hx
              simpa using this
            · rw [hpen] at hx; cases hx
        · rcases present_append hx with h | ⟨h, _⟩
          · rcases List.mem_append.1 h with h | h
            · obtain ⟨_, _, e⟩ := List.mem_map.1 h; cases e
            · simp at h
          · rcases ih.present x h with h | h | ⟨r, h⟩
            · exact .inl h
            · exact .inr (.inl h)
            · exact .inr (.inr ⟨r, by simp [h]⟩)

/-! ## No abort without cause -/

structure Cause (cap : String → Bool) (ops : List Op) (s : State) (tr : List Out) : Prop where
  autonomous : s.autonomous = true → .configure true ∈ ops
  timeSync : s.timeSync = true → .createTimeSync ∈ ops
  peers : ∀ q c, .peer q c ∈ ops → s.peers q = some (cap q)
  known : ∀ q, q ∈ s.synced ∨ s.pending = some q → (∃ c, .peer q c ∈ ops) ∧ .seen q ∈ tr
  aborted : ∀ r, .aborted r ∈ tr → cap r = false ∧ .seen r ∈ tr ∧ .configure true ∈ ops ∧ .createTimeSync ∈ ops

theorem Cause.lacks {cap : String → Bool} {ops : List Op} {s : State} {tr : List Out} (h : Cause cap ops s tr) {q : String} {c : Option Bool} (hq : .peer q c ∈ ops) (hl : s.lacks q = true) :
    cap q = false ∧ .configure true ∈ ops ∧ .createTimeSync ∈ ops := by
  simp only [State.lacks, Bool.and_eq_true, bne_iff_ne, ne_eq] at hl
  refine ⟨?_, h.autonomous hl.1.1, h.timeSync hl.1.2⟩
  cases hc : cap q
  · rfl
  · exact absurd (by rw [h.peers q c hq, hc]) hl.2

theorem Cause.more {cap : String → Bool} {ops : List Op} {s s' : State} {tr o : List Out} (h : Cause cap ops s tr) (op : Op) (hop : ∀ q c, op ≠ .peer q c)
    (h1 : s'.autonomous = true → s.autonomous = true ∨ op = .configure true) (h2 : s'.timeSync = true → s.timeSync = true ∨ op = .createTimeSync) (h3 : s'.peers = s.peers)
    (h4 : ∀ q, q ∈ s'.synced ∨ s'.pending = some q → (q ∈ s.synced ∨ s.pending = some q) ∨ ((∃ c, .peer q c ∈ ops) ∧ .seen q ∈ o))
    (h5 : ∀ r, .aborted r ∈ o → cap r = false ∧ .seen r ∈ tr ++ o ∧ .configure true ∈ ops ∧ .createTimeSync ∈ ops) : Cause cap (ops ++ [op]) s' (tr ++ o) := by
  refine ⟨fun e => ?_, fun e => ?_, fun q c e => ?_, fun q e => ?_, fun r e => ?_⟩
  · rcases h1 e with e | e
    · simp [h.autonomous e]
    · simp [e]
  · rcases h2 e with e | e
    · simp [h.timeSync e]
    · simp [e]
  · rw [h3]
    rcases List.mem_append.1 e with e | e
    · exact h.peers q c e
    · exact absurd (List.mem_singleton.1 e).symm (hop q c)
  · rcases h4 q e with e | ⟨⟨c, e⟩, e'⟩
    · obtain ⟨⟨c, e1⟩, e2⟩ := h.known q e
      exact ⟨⟨c, by simp [e1]⟩, by simp [e2]⟩
    · exact ⟨⟨c, by simp [e]⟩, by simp [e']⟩
  · rcases List.mem_append.1 e with e | e
    · obtain ⟨a, b, c, d⟩ := h.aborted r e
      exact ⟨a, by simp [b], by simp [c], by simp [d]⟩
    · obtain ⟨a, b, c, d⟩ := h5 r e
      exact ⟨a, b, by simp [c], by simp [d]⟩

theorem cause_run (own : String) (cap : String → Bool) (ops : List Op) (hc : Capable cap ops) (hk : Connected ops) : Cause cap ops (run own ops).1 (run own ops).2 := by
  induction ops using snoc_induction with
  | h0 => exact ⟨fun h => (by cases h), fun h => (by cases h), fun q c h => (by cases h), fun q h => (by rcases h with h | h <;> cases h), fun r h => (by cases h)⟩
  | h1 ops op ih =>
    have ih := ih (fun q c h => hc q c (by simp [h])) (fun a b q x e => hk a (b ++ [op]) q x (by rw [e]; simp))
    rw [run_snoc]
    generalize (run own ops).1 = s at ih ⊢
    generalize (run own ops).2 = tr at ih ⊢
    cases op with
    | configure a => exact ih.more _ (by simp) (fun e => .inr (by rw [← show a = true from e])) .inl rfl (fun _ => .inl) (by simp [step])
    | createTimeSync => exact ih.more _ (by simp) .inl (fun _ => .inr rfl) rfl (fun _ => .inl) (by simp [step])
    | startLifecycle =>
      dsimp only [step]
      split
      · exact ih.more _ (by simp) .inl .inl rfl (fun _ => .inl) (by simp)
      · exact ih.more _ (by simp) .inl .inl rfl (fun _ => .inl) (by simp)
    | peer q c =>
      simp only [step, List.append_nil]
      refine ⟨fun e => by simp [ih.autonomous e], fun e => by simp [ih.timeSync e], fun x c' e => ?_, fun x e => ?_, fun r e => ?_⟩
      · dsimp only
        by_cases hx : x = q
        · rw [if_pos hx, hx]
          exact hc q c (by simp)
        · rw [if_neg hx]
          rcases List.mem_append.1 e with e | e
          · exact ih.peers x c' e
          · rw [List.mem_singleton] at e
            injection e with e _
            exact absurd e hx
      · obtain ⟨⟨c', e1⟩, e2⟩ := ih.known x e
        exact ⟨⟨c', by simp [e1]⟩, e2⟩
      · obtain ⟨a, b, c, d⟩ := ih.aborted r e
        exact ⟨a, b, by simp [c], by simp [d]⟩
    | discover q active =>
      obtain ⟨c, hp⟩ := hk ops [] q active rfl
      dsimp only [step]
      split
      · exact ih.more _ (by simp) .inl .inl rfl (fun _ => .inl) (by simp)
      · split
        · rename_i hl
          refine ih.more _ (by simp) .inl .inl rfl (fun _ => .inl) fun r hr => ?_
          have : r = q := by simpa using hr
          subst this
          obtain ⟨a, b, c⟩ := ih.lacks hp hl
          exact ⟨a, by simp, b, c⟩
        · refine ih.more _ (by simp) .inl .inl rfl (fun x hx => ?_) (by simp)
          rcases hx with hx | hx
          · exact .inl (.inl hx)
          · injection hx with hx
            subst hx
            exact .inr ⟨⟨c, hp⟩, by simp⟩
    | finish =>
      dsimp only [step]
      split
      · exact ih.more _ (by simp) .inl .inl rfl (fun _ => .inl) (by simp)
      · rename_i q hp
        refine ih.more _ (by simp) .inl .inl rfl (fun x hx => .inl ?_) (by simp)
        rcases hx with hx | hx
        · dsimp only at hx
          split at hx
          · exact .inl hx
          · rcases List.mem_cons.1 hx with rfl | hx
            · exact .inr hp
            · exact .inl hx
        · cases hx
    | remove q =>
      dsimp only [step]
      split
      · exact ih.more _ (by simp) .inl .inl rfl (fun _ => .inl) (by simp)
      · refine ih.more _ (by simp) .inl .inl rfl (fun x hx => .inl ?_) (by simp)
        rcases hx with hx | hx
        · exact .inl (List.mem_filter.1 hx).1
        · exact .inr hx
    | startTime =>
      dsimp only [step]
      split
      · exact ih.more _ (by simp) .inl .inl rfl (fun _ => .inl) (by simp)
      · refine ih.more _ (by simp) .inl .inl rfl (fun _ => .inl) fun r hr => ?_
        split at hr
        · rcases List.mem_append.1 hr with hr | hr
          · obtain ⟨r', hm, e⟩ := List.mem_map.1 hr
            injection e with e
            subst e
            have hm := List.mem_filter.1 (List.mem_of_mem_take hm)
            obtain ⟨⟨c, hp⟩, hs⟩ := ih.known r' (.inl hm.1)
            obtain ⟨a, b, d⟩ := ih.lacks hp hm.2
            exact ⟨a, by simp [hs], b, d⟩
          · simp at hr
        · simp at hr

theorem seen_run (own : String) (ops : List Op) : ∀ q, .seen q ∈ (run own ops).2 → q ≠ own ∧ .discover q true ∈ ops := by
  induction ops using snoc_induction with
  | h0 => intro q h; cases h
  | h1 ops op ih =>
    intro q h
    rw [run_snoc] at h
    rcases List.mem_append.1 h with h | h
    · exact ⟨(ih q h).1, by simp [(ih q h).2]⟩
    · cases op with
      | discover x active =>
        dsimp only [step] at h
        split at h
        · cases h
        · rename_i hn
          have hx : x = q := by split at h <;> simp at h <;> exact h.symm
          subst hx
          refine ⟨fun e => hn (.inr (.inl e)), ?_⟩
          cases active
          · exact absurd (.inr (.inr rfl)) hn
          · simp
      | startLifecycle => dsimp only [step] at h; split at h <;> cases h
      | finish => dsimp only [step] at h; split at h <;> cases h
      | remove x => dsimp only [step] at h; split at h <;> simp at h
      | startTime =>
        dsimp only [step] at h
        split at h
        · cases h
        · rcases List.mem_append.1 h with h | h
          · split at h
            · obtain ⟨_, _, e⟩ := List.mem_map.1 h; cases e
            · cases h
          · simp at h
      | _ => cases h

end SilKit.AutonomousCheck
