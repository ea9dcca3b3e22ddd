import Verif.Lemmas.LinOwn
/-!
# LIN networks: every controller runs on its own
-/
namespace SilKit.Lin
open SilKit.Lin.Spec SilKit.Handling.Spec

theorem run_append (k : Nat) (net : String) (h : List Act) (a : Act) : run k net (h ++ [a]) = Spec.on (run k net h) a := by simp [run]

theorem run_append_list (k : Nat) (net : String) (h g : List Act) : run k net (h ++ g) = g.foldl Spec.on (run k net h) := by simp [run]

theorem run_induction {k : Nat} {net : String} {P : List Act → Net × List Ev → Prop} (h0 : P [] (Net.init k net, []))
    (hs : ∀ h a, P h (run k net h) → P (h ++ [a]) (Spec.on (run k net h) a)) (h : List Act) : P h (run k net h) := by
  rw [← List.reverse_reverse h]
  induction h.reverse with
  | nil => exact h0
  | cons a t ih =>
    rw [List.reverse_cons, run_append]
    exact hs _ a ih

/-- The messages sent. -/
def sendOf : Out → Option Msg
  | .did (.send m) => some m
  | _ => none

def sendsOf (os : List Out) : List Msg := os.filterMap sendOf

theorem sendsOf_append (a b : List Out) : sendsOf (a ++ b) = sendsOf a ++ sendsOf b := by simp [sendsOf]

theorem posts_eq (s : Net) (i : Nat) (os : List Out) : s.posts i os = (sendsOf os).foldl (fun s m => s.post i m) s := by
  unfold Net.posts
  induction os generalizing s with
  | nil => rfl
  | cons o t ih =>
    rw [List.foldl_cons, ih]
    cases o with
    | did d => cases d <;> rfl
    | _ => rfl

theorem posts_same (s : Net) (i : Nat) (os : List Out) : (s.posts i os).k = s.k ∧ (s.posts i os).ctl = s.ctl ∧ (s.posts i os).opn = s.opn := by
  rw [posts_eq]
  generalize sendsOf os = ms
  induction ms generalizing s with
  | nil => simp
  | cons m t ih =>
    rw [List.foldl_cons]
    obtain ⟨h1, h2, h3⟩ := ih (s.post i m)
    exact ⟨h1, h2, h3⟩

theorem become_ctl (s : Net) (i : Nat) (r : R) : (s.become i r).ctl = upd s.ctl i r.1 := (posts_same _ _ _).2.1
theorem become_k (s : Net) (i : Nat) (r : R) : (s.become i r).k = s.k := (posts_same _ _ _).1
theorem become_opn (s : Net) (i : Nat) (r : R) : (s.become i r).opn = s.opn := (posts_same _ _ _).2.2

theorem goesTo_post (s : Net) (i a b : Nat) (m x : Msg) : (s.post i x).goesTo a b m = s.goesTo a b m := rfl

/-- The channels after messages have been sent. -/
theorem posts_chan (s : Net) (i : Nat) (os : List Out) (a b : Nat) :
    (s.posts i os).chan a b = s.chan a b ++ (if a = i then (sendsOf os).filter (s.goesTo i b) else []) := by
  rw [posts_eq]
  generalize sendsOf os = ms
  induction ms generalizing s with
  | nil => simp
  | cons m t ih =>
    rw [List.foldl_cons, ih]
    have : (s.post i m).goesTo i b = s.goesTo i b := rfl
    rw [this]
    by_cases ha : a = i
    · by_cases hg : s.goesTo i b m = true
      · simp [ha, hg, Net.post]
      · simp [ha, hg, Net.post]
    · simp [ha, Net.post]

theorem become_chan (s : Net) (i : Nat) (r : R) (a b : Nat) :
    (s.become i r).chan a b = s.chan a b ++ (if a = i then (sendsOf r.2).filter (s.goesTo i b) else []) := posts_chan _ _ _ _ _

theorem step_k (s : Net) (a : Act) : (s.step a).1.k = s.k := by
  cases a with
  | api i a => simp only [Net.step]; split <;> simp [become_k]
  | deliver i j =>
    simp only [Net.step]
    split
    · cases s.chan i j with
      | nil => rfl
      | cons m t => simp only [Net.deliver]; rw [become_k]; rfl
    · rfl
  | «open» i j ty => simp only [Net.step]; split <;> rfl
  | close i j => simp only [Net.step]; split <;> rfl

theorem run_k (k : Nat) (net : String) (h : List Act) : (run k net h).1.k = k :=
  run_induction (P := fun _ r => r.1.k = k) rfl (fun h a ih => (step_k _ a).trans ih) h

theorem inputs_append (i : Nat) (a b : List Ev) : inputs i (a ++ b) = inputs i a ++ inputs i b := by simp [inputs]
theorem outs_append (i : Nat) (a b : List Ev) : outs i (a ++ b) = outs i a ++ outs i b := by simp [outs]
theorem reported_append (i : Nat) (a b : List Ev) : reported i (a ++ b) = reported i a ++ reported i b := by simp [reported, outs_append, Handling.tolds_append]

theorem inputs_outs (i j : Nat) (os : List Out) : inputs i (os.map (.out j)) = [] := by
  unfold inputs
  rw [List.filterMap_map]
  have : (inputOf i ∘ Ev.out j) = fun _ => none := rfl
  rw [this]
  simp

theorem outs_outs (i j : Nat) (os : List Out) : outs i (os.map (.out j)) = if j = i then os else [] := by
  unfold outs
  rw [List.filterMap_map]
  by_cases h : j = i
  · have : (outOf i ∘ Ev.out j) = some := by funext o; simp [outOf, h]
    rw [this]
    simp [h]
  · have : (outOf i ∘ Ev.out j) = fun _ => none := by funext o; simp [outOf, h]
    rw [this]
    simp [h]

/-- What a step does to one controller. -/
inductive StepAt (s : Net) (a : Act) (i : Nat) : Prop
  | quiet (h1 : (s.step a).1.ctl i = s.ctl i) (h2 : inputs i (s.step a).2 = []) (h3 : outs i (s.step a).2 = [])
  | call (x : Call) (h0 : a = .api i x) (hk : i < s.k) (h1 : (s.step a).1.ctl i = ((s.ctl i).api x).1) (h2 : inputs i (s.step a).2 = [.call x])
      (h3 : outs i (s.step a).2 = ((s.ctl i).api x).2)
  | recv (src : Nat) (m : Msg) (t : List Msg) (h0 : a = .deliver src i) (hc : s.chan src i = m :: t) (hk : src < s.k ∧ i < s.k)
      (h1 : (s.step a).1.ctl i = ((s.ctl i).receive src m).1) (h2 : inputs i (s.step a).2 = [.recv src m]) (h3 : outs i (s.step a).2 = ((s.ctl i).receive src m).2)

theorem stepAt (s : Net) (a : Act) (i : Nat) : StepAt s a i := by
  cases a with
  | api j x =>
    by_cases hk : j < s.k
    · have e : s.step (.api j x) = (s.become j ((s.ctl j).api x), .call j x :: ((s.ctl j).api x).2.map (.out j)) := by simp only [Net.step, if_pos hk]
      by_cases hj : j = i
      · subst hj
        refine .call x rfl hk ?_ ?_ ?_
        · rw [e, become_ctl]; simp [upd]
        · rw [e]; show inputs j ([Ev.call j x] ++ _) = _
          rw [inputs_append, inputs_outs]; simp [inputs, inputOf]
        · rw [e]; show outs j ([Ev.call j x] ++ _) = _
          rw [outs_append, outs_outs]; simp [outs, outOf]
      · refine .quiet ?_ ?_ ?_
        · rw [e, become_ctl]; simp [upd, Ne.symm hj]
        · rw [e]; show inputs i ([Ev.call j x] ++ _) = _
          rw [inputs_append, inputs_outs]; simp [inputs, inputOf, hj]
        · rw [e]; show outs i ([Ev.call j x] ++ _) = _
          rw [outs_append, outs_outs]; simp [outs, outOf, hj]
    · have e : s.step (.api j x) = (s, []) := by simp only [Net.step, if_neg hk]
      exact .quiet (by rw [e]) (by rw [e]; rfl) (by rw [e]; rfl)
  | deliver src j =>
    by_cases hk : src < s.k ∧ j < s.k
    · cases hc : s.chan src j with
      | nil =>
        have e : s.step (.deliver src j) = (s, []) := by simp only [Net.step, if_pos hk, hc, Net.deliver]
        exact .quiet (by rw [e]) (by rw [e]; rfl) (by rw [e]; rfl)
      | cons m t =>
        have e : s.step (.deliver src j) = ((s.pop src j).become j ((s.ctl j).receive src m), Ev.recv j src m :: ((s.ctl j).receive src m).2.map (.out j)) := by
          simp only [Net.step, if_pos hk, hc, Net.deliver]
        by_cases hj : j = i
        · subst hj
          refine .recv src m t rfl hc hk ?_ ?_ ?_
          · rw [e, become_ctl]; simp [upd]
          · rw [e]; show inputs j ([Ev.recv j src m] ++ _) = _
            rw [inputs_append, inputs_outs]; simp [inputs, inputOf]
          · rw [e]; show outs j ([Ev.recv j src m] ++ _) = _
            rw [outs_append, outs_outs]; simp [outs, outOf]
        · refine .quiet ?_ ?_ ?_
          · rw [e, become_ctl]; simp [upd, Ne.symm hj]; rfl
          · rw [e]; show inputs i ([Ev.recv j src m] ++ _) = _
            rw [inputs_append, inputs_outs]; simp [inputs, inputOf, hj]
          · rw [e]; show outs i ([Ev.recv j src m] ++ _) = _
            rw [outs_append, outs_outs]; simp [outs, outOf, hj]
    · have e : s.step (.deliver src j) = (s, []) := by simp only [Net.step, if_neg hk]
      exact .quiet (by rw [e]) (by rw [e]; rfl) (by rw [e]; rfl)
  | «open» p q ty =>
    refine .quiet ?_ ?_ ?_ <;>
    · simp only [Net.step]
      split <;> rfl
  | close p q =>
    refine .quiet ?_ ?_ ?_ <;>
    · simp only [Net.step]
      split <;> rfl

/-- Every controller runs on its own. -/
theorem run_solo (k : Nat) (net : String) (h : List Act) (i : Nat) :
    (run k net h).1.ctl i = (solo i net (inputs i (run k net h).2)).1 ∧ outs i (run k net h).2 = (solo i net (inputs i (run k net h).2)).2 := by
  refine run_induction (P := fun _ r => r.1.ctl i = (solo i net (inputs i r.2)).1 ∧ outs i r.2 = (solo i net (inputs i r.2)).2) ⟨rfl, rfl⟩ (fun h a ih => ?_) h
  obtain ⟨i1, i2⟩ := ih
  simp only [Spec.on, inputs_append, outs_append]
  cases stepAt (run k net h).1 a i with
  | quiet h1 h2 h3 => rw [h1, h2, h3, List.append_nil, List.append_nil]; exact ⟨i1, i2⟩
  | call x h0 hk h1 h2 h3 =>
    rw [h1, h2, h3, solo_append]
    simp only [onInput, Ctl.input, ← i1, i2, and_self]
  | recv src m t h0 hc hk h1 h2 h3 =>
    rw [h1, h2, h3, solo_append]
    simp only [onInput, Ctl.input, ← i1, i2, and_self]

end SilKit.Lin
