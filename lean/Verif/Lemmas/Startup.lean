import Verif.Spec.Startup
/-!
# Lemmas on the coordinated start
-/
namespace SilKit.Startup
open Spec
open Lifecycle (Life Out Config Throws Completion andThen)

/-! ## Nobody runs too early -/

abbrev Pub (tr : Trace) (q : String) (s : ParticipantState) : Prop := (q, Out.published s) ∈ tr

theorem all_mono {R : List String} {s : ParticipantState} {tr : Trace} (h : AllReported R s tr) (new : Trace) : AllReported R s (tr ++ new) :=
  fun q hq => List.mem_append_left _ (h q hq)

/-- The lifecycle of `p`. -/
structure LI (cfg : Config) (R : List String) (p : String) (l : Life) (tr : Trace) : Prop where
  rtr : l.state = .readyToRun ∨ l.state = .running ∨ l.state = .paused → Pub tr p .readyToRun
  ci : l.state = .communicationInitialized → Pub tr p .communicationInitialized
  sc : l.state = .servicesCreated ∨ l.state = .communicationInitializing ∨ Completion.servicesCreated ∈ l.pending ∨ l.active = some .servicesCreated ∨ 0 < l.subsWaiting →
    Pub tr p .servicesCreated
  allSC : cfg.autonomous = false → Completion.servicesCreated ∈ l.pending ∨ l.active = some .servicesCreated → AllReported R .servicesCreated tr
  allRun : cfg.autonomous = false → l.state = .running ∨ l.state = .paused → AllReported R .readyToRun tr

theorem LI_mono {cfg : Config} {R : List String} {p : String} {l : Life} {tr : Trace} (h : LI cfg R p l tr) (new : Trace) : LI cfg R p l (tr ++ new) where
  rtr x := List.mem_append_left _ (h.rtr x)
  ci x := List.mem_append_left _ (h.ci x)
  sc x := List.mem_append_left _ (h.sc x)
  allSC a x := all_mono (h.allSC a x) _
  allRun a x := all_mono (h.allRun a x) _

/-- What is seen. -/
structure SafeT (cfgs : String → Config) (R : List String) (tr : Trace) : Prop where
  run : ∀ q, Pub tr q .running → Pub tr q .readyToRun
  rtr : ∀ q, Pub tr q .readyToRun → Pub tr q .communicationInitialized
  ci : ∀ q, Pub tr q .communicationInitialized → Pub tr q .servicesCreated
  ciing : ∀ q, Pub tr q .communicationInitializing → Pub tr q .servicesCreated
  pre : ∀ a p x b, tr = a ++ (p, x) :: b → (cfgs p).autonomous = false →
    (runs x = true → AllReported R .readyToRun a) ∧ (x = .called .commReady → AllReported R .communicationInitialized a) ∧
      (x = .published .communicationInitializing → AllReported R .servicesCreated a)

theorem snoc_split {α : Type} {l a b : List α} {x y : α} (h : l ++ [x] = a ++ y :: b) : (b = [] ∧ a = l ∧ y = x) ∨ ∃ b', b = b' ++ [x] ∧ l = a ++ y :: b' := by
  rcases List.eq_nil_or_concat b with rfl | ⟨b', z, rfl⟩
  · left
    have := List.append_inj' h rfl
    exact ⟨rfl, this.1.symm, by simpa using this.2.symm⟩
  · right
    have h2 : l ++ [x] = (a ++ y :: b') ++ [z] := by rw [h]; simp
    have := List.append_inj' h2 rfl
    refine ⟨b', ?_, this.1⟩
    have hz : x = z := by simpa using this.2
    rw [hz, List.concat_eq_append]

theorem safe_snoc {cfgs : String → Config} {R : List String} {tr : Trace} (h : SafeT cfgs R tr) {p : String} {x : Out}
    (h1 : x = .published .running → Pub tr p .readyToRun) (h2 : x = .published .readyToRun → Pub tr p .communicationInitialized)
    (h3 : x = .published .communicationInitialized → Pub tr p .servicesCreated) (h4 : x = .published .communicationInitializing → Pub tr p .servicesCreated)
    (h5 : (cfgs p).autonomous = false → (runs x = true → AllReported R .readyToRun tr) ∧ (x = .called .commReady → AllReported R .communicationInitialized tr) ∧
      (x = .published .communicationInitializing → AllReported R .servicesCreated tr)) : SafeT cfgs R (tr ++ [(p, x)]) := by
  have key : ∀ {s t : ParticipantState}, (∀ q, Pub tr q s → Pub tr q t) → (x = .published s → Pub tr p t) → ∀ q, Pub (tr ++ [(p, x)]) q s → Pub (tr ++ [(p, x)]) q t := by
    intro s t ha hb q hq
    rcases List.mem_append.mp hq with hq | hq
    · exact List.mem_append_left _ (ha q hq)
    · rw [List.mem_singleton, Prod.mk.injEq] at hq
      rw [hq.1]
      exact List.mem_append_left _ (hb hq.2.symm)
  refine ⟨key h.run h1, key h.rtr h2, key h.ci h3, key h.ciing h4, ?_⟩
  intro a q y b e hc
  rcases snoc_split e with ⟨-, rfl, hy⟩ | ⟨b', -, h'⟩
  · cases hy
    exact h5 hc
  · exact h.pre a q y b' h' hc

/-- The outcome of a reaction of `p`. -/
def Good (cfgs : String → Config) (R : List String) (p : String) (tr : Trace) (r : Life × List Out) : Prop :=
  LI (cfgs p) R p r.1 (tr ++ r.2.map (p, ·)) ∧ SafeT cfgs R (tr ++ r.2.map (p, ·))

section
variable {cfgs : String → Config} {R : List String} {p : String} {tr : Trace}

theorem good_nil {l : Life} (h : Good cfgs R p tr (l, [])) : LI (cfgs p) R p l tr ∧ SafeT cfgs R tr := by simpa [Good] using h

theorem nil_good {l : Life} (h : LI (cfgs p) R p l tr ∧ SafeT cfgs R tr) : Good cfgs R p tr (l, []) := by simpa [Good] using h

theorem good_andThen {r : Life × List Out} {f : Life → Life × List Out} (h : Good cfgs R p tr r) (hf : Good cfgs R p tr r → Good cfgs R p (tr ++ r.2.map (p, ·)) (f r.1)) :
    Good cfgs R p tr (andThen r f) := by
  have := hf h
  unfold Good at *
  unfold andThen
  simpa using this

theorem good_setState {l : Life} (h : LI (cfgs p) R p l tr ∧ SafeT cfgs R tr) (s : ParticipantState)
    (hrun : s = .running ∨ s = .paused → Pub tr p .readyToRun ∧ ((cfgs p).autonomous = false → AllReported R .readyToRun tr))
    (hrtr : s = .readyToRun → Pub tr p .communicationInitialized) (hci : s = .communicationInitialized → Pub tr p .servicesCreated)
    (hciing : s = .communicationInitializing → Pub tr p .servicesCreated ∧ ((cfgs p).autonomous = false → AllReported R .servicesCreated tr)) :
    Good cfgs R p tr (Lifecycle.setState l s) := by
  obtain ⟨hl, hs⟩ := h
  have hself : Pub (tr ++ [(p, Out.published s)]) p s := by simp [Pub]
  refine ⟨?_, ?_⟩
  · show LI _ _ _ _ (tr ++ [(p, Out.published s)])
    refine ⟨?_, ?_, ?_, ?_, ?_⟩
    · intro x
      rcases x with x | x | x
      · have x : s = .readyToRun := x
        rw [x] at hself; rw [x]; exact hself
      · exact List.mem_append_left _ (hrun (.inl x)).1
      · exact List.mem_append_left _ (hrun (.inr x)).1
    · intro x
      have x : s = .communicationInitialized := x
      rw [x] at hself; rw [x]; exact hself
    · intro x
      rcases x with x | x | x
      · have x : s = .servicesCreated := x
        rw [x] at hself; rw [x]; exact hself
      · exact List.mem_append_left _ (hciing x).1
      · exact List.mem_append_left _ (hl.sc (.inr (.inr x)))
    · exact fun a x => all_mono (hl.allSC a x) _
    · exact fun a x => all_mono ((hrun x).2 a) _
  · show SafeT _ _ (tr ++ [(p, Out.published s)])
    refine safe_snoc hs ?_ ?_ ?_ ?_ ?_
    · intro x; cases x; exact (hrun (.inl rfl)).1
    · intro x; cases x; exact hrtr rfl
    · intro x; cases x; exact hci rfl
    · intro x; cases x; exact (hciing rfl).1
    · intro hc
      refine ⟨fun x => ?_, (fun x => nomatch x), fun x => ?_⟩
      · cases s <;> first | exact (hrun (.inl rfl)).2 hc | cases x
      · cases x; exact (hciing rfl).2 hc

/-- A state outside of the start. -/
theorem good_setState_other {l : Life} (h : LI (cfgs p) R p l tr ∧ SafeT cfgs R tr) {s : ParticipantState} (h1 : s ≠ .running) (h2 : s ≠ .paused) (h3 : s ≠ .readyToRun)
    (h4 : s ≠ .communicationInitialized) (h5 : s ≠ .communicationInitializing) : Good cfgs R p tr (Lifecycle.setState l s) :=
  good_setState h s (fun x => x.elim (absurd · h1) (absurd · h2)) (absurd · h3) (absurd · h4) (absurd · h5)

theorem good_call {l : Life} (h : LI (cfgs p) R p l tr ∧ SafeT cfgs R tr) {x : Out} (hp : ∀ s, x ≠ .published s)
    (hrun : (cfgs p).autonomous = false → runs x = true → AllReported R .readyToRun tr) (hcomm : (cfgs p).autonomous = false → x = .called .commReady → AllReported R .communicationInitialized tr) :
    Good cfgs R p tr (l, [x]) :=
  ⟨LI_mono h.1 _, safe_snoc h.2 (fun e => absurd e (hp _)) (fun e => absurd e (hp _)) (fun e => absurd e (hp _)) (fun e => absurd e (hp _))
    (fun hc => ⟨hrun hc, hcomm hc, fun e => absurd e (hp _)⟩)⟩

theorem good_optional {l : Life} (h : LI (cfgs p) R p l tr ∧ SafeT cfgs R tr) (c : Bool) {x : Out} (hp : ∀ s, x ≠ .published s)
    (hrun : (cfgs p).autonomous = false → runs x = true → AllReported R .readyToRun tr) (hcomm : (cfgs p).autonomous = false → x = .called .commReady → AllReported R .communicationInitialized tr) :
    Good cfgs R p tr (l, if c then [x] else []) := by
  split
  · exact good_call h hp hrun hcomm
  · exact nil_good h

theorem good_change {l l' : Life} (h : LI (cfgs p) R p l tr ∧ SafeT cfgs R tr) (h1 : l'.state = l.state) (h2 : ∀ c ∈ l'.pending, c ∈ l.pending ∨ c ≠ .servicesCreated ∨ ((cfgs p).autonomous = false → AllReported R .servicesCreated tr) ∧ Pub tr p .servicesCreated)
    (h3 : l'.active = some .servicesCreated → l.active = some .servicesCreated ∨ Completion.servicesCreated ∈ l.pending) (h4 : 0 < l'.subsWaiting → 0 < l.subsWaiting ∨ Pub tr p .servicesCreated) : LI (cfgs p) R p l' tr ∧ SafeT cfgs R tr := by
  refine ⟨⟨?_, ?_, ?_, ?_, ?_⟩, h.2⟩
  · rw [h1]; exact h.1.rtr
  · rw [h1]; exact h.1.ci
  · rw [h1]
    rintro (x | x | x | x | x)
    · exact h.1.sc (.inl x)
    · exact h.1.sc (.inr (.inl x))
    · rcases h2 _ x with y | y | y
      · exact h.1.sc (.inr (.inr (.inl y)))
      · exact absurd rfl y
      · exact y.2
    · rcases h3 x with y | y
      · exact h.1.sc (.inr (.inr (.inr (.inl y))))
      · exact h.1.sc (.inr (.inr (.inl y)))
    · rcases h4 x with y | y
      · exact h.1.sc (.inr (.inr (.inr (.inr y))))
      · exact y
  · intro ha x
    rcases x with x | x
    · rcases h2 _ x with y | y | y
      · exact h.1.allSC ha (.inl y)
      · exact absurd rfl y
      · exact y.1 ha
    · rcases h3 x with y | y
      · exact h.1.allSC ha (.inr y)
      · exact h.1.allSC ha (.inl y)
  · rw [h1]; exact h.1.allRun

theorem good_error {l : Life} (h : LI (cfgs p) R p l tr ∧ SafeT cfgs R tr) : Good cfgs R p tr (Lifecycle.error l) := by
  unfold Lifecycle.error
  split
  · exact nil_good h
  · exact good_setState_other h (by simp) (by simp) (by simp) (by simp) (by simp)

theorem good_callAfter {l : Life} (h : LI (cfgs p) R p l tr ∧ SafeT cfgs R tr) (c : Completion) (hc : c = .servicesCreated → ((cfgs p).autonomous = false → AllReported R .servicesCreated tr) ∧ Pub tr p .servicesCreated) :
    Good cfgs R p tr (Lifecycle.callAfterAllReplied l c) := by
  refine nil_good (good_change h rfl ?_ .inl .inl)
  intro x hx
  rcases List.mem_append.mp hx with hx | hx
  · exact .inl hx
  · rw [List.mem_singleton] at hx
    by_cases hy : x = .servicesCreated
    · exact .inr (.inr (hc (hx.symm.trans hy)))
    · exact .inr (.inl hy)

/-- The next step, if it needs no more than the invariants. -/
theorem good_then {r : Life × List Out} {f : Life → Life × List Out} (h : Good cfgs R p tr r)
    (hf : ∀ tr l, LI (cfgs p) R p l tr ∧ SafeT cfgs R tr → Good cfgs R p tr (f l)) : Good cfgs R p tr (andThen r f) :=
  good_andThen h (fun h => hf _ _ h)

theorem good_final {l : Life} (h : LI (cfgs p) R p l tr ∧ SafeT cfgs R tr) : Good cfgs R p tr (Lifecycle.callAfterAllReplied l .final) := good_callAfter h _ (fun x => nomatch x)

theorem good_shutdownState {l : Life} (h : LI (cfgs p) R p l tr ∧ SafeT cfgs R tr) : Good cfgs R p tr (Lifecycle.setState l .shutdown) :=
  good_setState_other h (by simp) (by simp) (by simp) (by simp) (by simp)

theorem good_shutdownInShuttingDown {l : Life} (h : LI (cfgs p) R p l tr ∧ SafeT cfgs R tr) (cfg : Config) : Good cfgs R p tr (Lifecycle.shutdownInShuttingDown cfg l) := by
  unfold Lifecycle.shutdownInShuttingDown
  exact good_then (good_then (good_optional h _ (by simp) (by simp [runs]) (by simp)) (fun _ _ h => good_shutdownState h)) (fun _ _ h => good_final h)

theorem good_resolveAbort {l : Life} (h : LI (cfgs p) R p l tr ∧ SafeT cfgs R tr) (cfg : Config) : Good cfgs R p tr (Lifecycle.resolveAbort cfg l) := by
  unfold Lifecycle.resolveAbort
  exact good_then (good_then (good_optional h _ (by simp) (by simp [runs]) (by simp)) (fun _ _ h => good_shutdownState h)) (fun _ _ h => good_final h)

theorem good_aborting {l : Life} (h : LI (cfgs p) R p l tr ∧ SafeT cfgs R tr) : Good cfgs R p tr (Lifecycle.setState l .aborting) :=
  good_setState_other h (by simp) (by simp) (by simp) (by simp) (by simp)

theorem good_abort {l : Life} (h : LI (cfgs p) R p l tr ∧ SafeT cfgs R tr) (cfg : Config) : Good cfgs R p tr (Lifecycle.abort cfg l) := by
  unfold Lifecycle.abort
  split
  all_goals first
    | exact nil_good h
    | exact good_then (good_then (good_call h (by simp) (by simp [runs]) (by simp)) (fun _ _ h => good_aborting h)) (fun _ _ h => good_resolveAbort h cfg)
    | exact good_then (good_aborting h) (fun _ _ h => good_resolveAbort h cfg)

theorem good_shutdown {l : Life} (h : LI (cfgs p) R p l tr ∧ SafeT cfgs R tr) (cfg : Config) : Good cfgs R p tr (Lifecycle.shutdown cfg l) := by
  unfold Lifecycle.shutdown
  split
  · exact good_then (good_setState_other h (by simp) (by simp) (by simp) (by simp) (by simp)) (fun _ _ h => good_shutdownInShuttingDown h cfg)
  · exact good_then (good_setState_other h (by simp) (by simp) (by simp) (by simp) (by simp)) (fun _ _ h => good_shutdownInShuttingDown h cfg)
  · exact good_shutdownInShuttingDown h cfg
  · exact good_final h
  · exact good_then (good_shutdownState h) (fun _ _ h => good_final h)
  · exact good_error h

theorem good_stopInStopping {l : Life} (h : LI (cfgs p) R p l tr ∧ SafeT cfgs R tr) (cfg : Config) (o : Throws) : Good cfgs R p tr (Lifecycle.stopInStopping cfg o l) := by
  unfold Lifecycle.stopInStopping
  refine good_then (good_optional h _ (by simp) (by simp [runs]) (by simp)) (fun _ _ h => ?_)
  split
  · exact good_setState_other h (by simp) (by simp) (by simp) (by simp) (by simp)
  · exact good_then (good_setState_other h (by simp) (by simp) (by simp) (by simp) (by simp)) (fun _ _ h => good_callAfter h _ (fun x => nomatch x))

theorem good_stop {l : Life} (h : LI (cfgs p) R p l tr ∧ SafeT cfgs R tr) (cfg : Config) (o : Throws) : Good cfgs R p tr (Lifecycle.stop cfg o l) := by
  have hst : ∀ {tr : Trace} {l : Life}, LI (cfgs p) R p l tr ∧ SafeT cfgs R tr → Good cfgs R p tr (Lifecycle.setState l .stopping) :=
    fun h => good_setState_other h (by simp) (by simp) (by simp) (by simp) (by simp)
  unfold Lifecycle.stop
  split
  · exact good_then (good_then (good_call h (by simp) (by simp [runs]) (by simp)) (fun _ _ h => hst h)) (fun _ _ h => good_stopInStopping h cfg o)
  · exact good_then (hst h) (fun _ _ h => good_stopInStopping h cfg o)
  · exact good_stopInStopping h cfg o
  · exact good_callAfter h _ (fun x => nomatch x)
  · exact good_shutdown h cfg
  · exact nil_good h

theorem good_runNow {l : Life} (h : LI (cfgs p) R p l tr ∧ SafeT cfgs R tr) (hst : Pub tr p .readyToRun) (hall : (cfgs p).autonomous = false → AllReported R .readyToRun tr) (cfg : Config) (o : Throws) :
    Good cfgs R p tr (Lifecycle.readyToRunInReadyToRun cfg o l) := by
  have hrun : ∀ (tr' : Trace) (l : Life), (LI (cfgs p) R p l (tr ++ tr') ∧ SafeT cfgs R (tr ++ tr')) → Good cfgs R p (tr ++ tr') (Lifecycle.setState l .running) := by
    intro tr' l h
    exact good_setState h _ (fun _ => ⟨List.mem_append_left _ hst, fun a => all_mono (hall a) _⟩) (by simp) (by simp) (by simp)
  unfold Lifecycle.readyToRunInReadyToRun
  split
  · refine good_andThen ?_ ?_
    · have := hrun [] l (by simpa using h)
      simpa using this
    · intro h
      exact good_call h (by simp) (fun a _ => all_mono (hall a) _) (by simp)
  · refine good_andThen (good_optional h _ (by simp) (fun a _ => hall a) (by simp)) ?_
    intro h
    dsimp only
    by_cases hc : (cfg.starting && o.starting) = true
    · rw [if_pos hc]
      exact good_setState_other h (by simp) (by simp) (by simp) (by simp) (by simp)
    · rw [if_neg hc]
      exact hrun _ _ h

theorem good_readyToRun {l : Life} (h : LI (cfgs p) R p l tr ∧ SafeT cfgs R tr) (hall : AllReported R .readyToRun tr) (cfg : Config) (o : Throws) : Good cfgs R p tr (Lifecycle.readyToRun cfg o l) := by
  unfold Lifecycle.readyToRun
  split
  · rename_i hs
    exact good_runNow h (h.1.rtr (.inl hs)) (fun _ => hall) cfg o
  · exact good_call h (by simp) (fun _ _ => hall) (by simp)
  · exact nil_good h
  · exact good_error h

theorem good_completeComm {l : Life} (h : LI (cfgs p) R p l tr ∧ SafeT cfgs R tr) (hst : Pub tr p .communicationInitialized) (o : Throws) :
    Good cfgs R p tr (Lifecycle.completeCommReadyInInitialized (cfgs p) o l) := by
  unfold Lifecycle.completeCommReadyInInitialized
  refine good_andThen (good_setState h _ (by simp) (fun _ => hst) (by simp) (by simp)) (fun h => ?_)
  split
  · rename_i ha
    exact good_runNow h (h.1.rtr (.inl rfl)) (fun x => by rw [ha] at x; cases x) _ o
  · exact nil_good h

theorem good_commInit {l : Life} (h : LI (cfgs p) R p l tr ∧ SafeT cfgs R tr) (hst : Pub tr p .communicationInitialized) (hall : (cfgs p).autonomous = false → AllReported R .communicationInitialized tr) (o : Throws) :
    Good cfgs R p tr (Lifecycle.commInitializedInInitialized (cfgs p) o l) := by
  unfold Lifecycle.commInitializedInInitialized
  split
  · exact good_completeComm h hst o
  · split
    · exact nil_good h
    · have h' : LI (cfgs p) R p { l with commInvoked := true, commCompleted := false } tr ∧ SafeT cfgs R tr := good_change h rfl (fun _ x => .inl x) .inl .inl
      refine good_andThen (good_call h' (by simp) (by simp [runs]) (fun a _ => hall a)) (fun h => ?_)
      split
      · exact good_setState_other h (by simp) (by simp) (by simp) (by simp) (by simp)
      · exact nil_good h
  · refine good_andThen (good_call h (by simp) (by simp [runs]) (fun a _ => hall a)) (fun h => ?_)
    split
    · exact good_setState_other h (by simp) (by simp) (by simp) (by simp) (by simp)
    · exact good_completeComm h (List.mem_append_left _ hst) o

theorem good_commInitialized {l : Life} (h : LI (cfgs p) R p l tr ∧ SafeT cfgs R tr) (hall : AllReported R .communicationInitialized tr) (hc : (cfgs p).autonomous = false) (o : Throws) :
    Good cfgs R p tr (Lifecycle.commInitialized (cfgs p) o l) := by
  unfold Lifecycle.commInitialized
  split
  · rename_i hs
    exact good_commInit h (h.1.ci hs) (fun _ => hall) o
  · rw [hc]
    exact nil_good h
  · exact nil_good h
  · exact nil_good h
  · exact good_error h

theorem good_subscriptionsDone {l : Life} (h : LI (cfgs p) R p l tr ∧ SafeT cfgs R tr) (hst : Pub tr p .servicesCreated) (o : Throws) : Good cfgs R p tr (Lifecycle.subscriptionsDone (cfgs p) o l) := by
  unfold Lifecycle.subscriptionsDone
  refine good_andThen (good_setState h _ (by simp) (by simp) (fun _ => hst) (by simp)) (fun h => ?_)
  split
  · rename_i ha
    exact good_commInit h (h.1.ci rfl) (fun x => by rw [ha] at x; cases x) o
  · exact nil_good h

theorem good_await {l : Life} (h : LI (cfgs p) R p l tr ∧ SafeT cfgs R tr) (hst : Pub tr p .servicesCreated) (o : Throws) : Good cfgs R p tr (Lifecycle.awaitSubscriptions (cfgs p) o l) := by
  unfold Lifecycle.awaitSubscriptions
  split
  · exact nil_good (good_change h rfl (fun _ x => .inl x) .inl (fun _ => .inr hst))
  · exact good_subscriptionsDone h hst o

theorem good_allSubscriptions (o : Throws) (n : Nat) {l : Life} {tr : Trace} (h : LI (cfgs p) R p l tr ∧ SafeT cfgs R tr) (hst : 0 < n → Pub tr p .servicesCreated) :
    Good cfgs R p tr (Lifecycle.allSubscriptionsDone (cfgs p) o n l) := by
  induction n generalizing l tr with
  | zero => exact nil_good (good_change h rfl (fun _ x => .inl x) .inl (fun x => absurd x (Nat.lt_irrefl 0)))
  | succ n ih =>
    unfold Lifecycle.allSubscriptionsDone
    have h1 := hst (Nat.succ_pos n)
    exact good_andThen (good_subscriptionsDone h h1 o) (fun h => ih h (fun _ => List.mem_append_left _ h1))

theorem good_complete {l : Life} (h : LI (cfgs p) R p l tr ∧ SafeT cfgs R tr) (c : Completion) (hc : c = .servicesCreated → Pub tr p .servicesCreated ∧ ((cfgs p).autonomous = false → AllReported R .servicesCreated tr)) (o : Throws) :
    Good cfgs R p tr (Lifecycle.complete (cfgs p) o c l) := by
  unfold Lifecycle.complete
  cases c with
  | servicesCreated =>
    obtain ⟨h1, h2⟩ := hc rfl
    exact good_andThen (good_setState h _ (by simp) (by simp) (by simp) (fun _ => ⟨h1, h2⟩)) (fun h => good_await h (List.mem_append_left _ h1) o)
  | stopped => exact good_shutdown h _
  | final =>
    dsimp only
    split
    · exact nil_good h
    · refine good_then (good_call h (by simp) (by simp [runs]) (by simp)) (fun tr1 l1 h => ?_)
      unfold Lifecycle.setFinalStatePromise
      split
      · exact nil_good h
      · have h' : LI (cfgs p) R p { l1 with finalSet := true } tr1 ∧ SafeT cfgs R tr1 := good_change h rfl (fun _ x => .inl x) .inl .inl
        exact good_call h' (by simp) (by simp [runs]) (by simp)

theorem good_servicesCreated {l : Life} (h : LI (cfgs p) R p l tr ∧ SafeT cfgs R tr) (hall : (cfgs p).autonomous = false → AllReported R .servicesCreated tr) (o : Throws) :
    Good cfgs R p tr (Lifecycle.servicesCreated (cfgs p) o l) := by
  unfold Lifecycle.servicesCreated
  split
  · rename_i hs
    exact good_callAfter h _ (fun _ => ⟨hall, h.1.sc (.inl hs)⟩)
  · rename_i hs
    exact good_await h (h.1.sc (.inr (.inl hs))) o
  · exact good_error h

/-- A system state that is reported to `p`. -/
def Justified (R : List String) (tr : Trace) (s : ParticipantState) : Prop :=
  (s = .servicesCreated → AllReported R .servicesCreated tr) ∧ (s = .communicationInitialized → AllReported R .communicationInitialized tr) ∧ (s = .readyToRun → AllReported R .readyToRun tr)

theorem good_on {l : Life} (h : LI (cfgs p) R p l tr ∧ SafeT cfgs R tr) (e : Lifecycle.Event) (he : ∀ s, e = .systemState s → Justified R tr s) (o : Throws) :
    Good cfgs R p tr (Lifecycle.on (cfgs p) l e o) := by
  cases e with
  | init =>
    show Good cfgs R p tr (Lifecycle.initState l)
    unfold Lifecycle.initState
    split
    · exact good_setState_other h (by simp) (by simp) (by simp) (by simp) (by simp)
    · exact nil_good h
    · exact nil_good h
    · exact nil_good h
    · exact good_error h
  | startAutonomous =>
    show Good cfgs R p tr (if _ then _ else _)
    split
    · rename_i ha
      exact good_servicesCreated h (fun x => by rw [ha] at x; cases x) o
    · exact nil_good h
  | systemState s =>
    obtain ⟨j1, j2, j3⟩ := he s rfl
    show Good cfgs R p tr (Lifecycle.newSystemState _ _ _ _)
    unfold Lifecycle.newSystemState
    split
    · exact nil_good h
    · rename_i ha
      have ha' : (cfgs p).autonomous = false := by simpa using ha
      have hd : LI (cfgs p) R p { l with stopDueToSystem := true } tr ∧ SafeT cfgs R tr := good_change h rfl (fun _ x => .inl x) .inl .inl
      split
      · exact good_servicesCreated h (fun _ => j1 rfl) o
      · exact good_commInitialized h (j2 rfl) ha' o
      · exact good_readyToRun h (j3 rfl) _ o
      · split
        · exact good_stop hd _ _
        · exact nil_good h
      · split
        · exact good_stop hd _ _
        · exact nil_good h
      · exact nil_good h
  | completeAsync =>
    show Good cfgs R p tr (if _ then _ else _)
    split
    · exact nil_good (good_change h rfl (fun _ x => .inl x) .inl .inl)
    · exact nil_good h
  | completeCommReady =>
    simp only [Lifecycle.on]
    split
    · exact nil_good h
    · unfold Lifecycle.completeCommReady
      have h' : ∀ n, LI (cfgs p) R p { l with completing := n } tr ∧ SafeT cfgs R tr := fun n => good_change h rfl (fun _ x => .inl x) .inl .inl
      split
      · rename_i hs
        exact good_completeComm (h' _) (h.1.ci hs) o
      · exact good_error (h' _)
  | reportError =>
    show Good cfgs R p tr (Lifecycle.reportError l)
    unfold Lifecycle.reportError
    split
    · exact nil_good h
    · exact good_error h
  | pause =>
    show Good cfgs R p tr (Lifecycle.pause l)
    unfold Lifecycle.pause
    split
    · rename_i hs
      exact good_setState h _ (fun _ => ⟨h.1.rtr (.inr (.inl hs)), fun a => h.1.allRun a (.inl hs)⟩) (by simp) (by simp) (by simp)
    · exact good_call h (by simp) (by simp [runs]) (by simp)
  | resume =>
    show Good cfgs R p tr (Lifecycle.resume l)
    unfold Lifecycle.resume
    split
    · rename_i hs
      exact good_setState h _ (fun _ => ⟨h.1.rtr (.inr (.inr hs)), fun a => h.1.allRun a (.inr hs)⟩) (by simp) (by simp) (by simp)
    · exact good_call h (by simp) (by simp [runs]) (by simp)
  | stop => exact good_stop h _ _
  | abort => exact good_abort h _
  | barrierStart alone =>
    show Good cfgs R p tr (Lifecycle.barrierStart _ _ _ _)
    unfold Lifecycle.barrierStart
    split
    · exact nil_good h
    · rename_i c rest hp
      have hm : ∀ c ∈ rest, c ∈ l.pending := fun x hx => by rw [hp]; exact List.mem_cons_of_mem _ hx
      have hc : c ∈ l.pending := by rw [hp]; exact List.mem_cons_self
      have hr : LI (cfgs p) R p { l with pending := rest } tr ∧ SafeT cfgs R tr := good_change h rfl (fun _ x => .inl (hm _ x)) .inl .inl
      split
      · exact good_call hr (by simp) (by simp [runs]) (by simp)
      · split
        · refine good_complete hr c (fun x => ?_) o
          rw [x] at hc
          exact ⟨h.1.sc (.inr (.inr (.inl hc))), fun a => h.1.allSC a (.inl hc)⟩
        · refine nil_good (good_change h rfl (fun _ x => .inl (hm _ x)) (fun x => ?_) .inl)
          cases x
          exact .inr hc
  | barrierDone =>
    show Good cfgs R p tr (Lifecycle.barrierDone _ _ _)
    unfold Lifecycle.barrierDone
    split
    · exact nil_good h
    · rename_i c hc
      have hr : LI (cfgs p) R p { l with active := none } tr ∧ SafeT cfgs R tr := good_change h rfl (fun _ x => .inl x) (fun x => nomatch x) .inl
      refine good_complete hr c (fun x => ?_) o
      rw [x] at hc
      exact ⟨h.1.sc (.inr (.inr (.inr (.inl hc)))), fun a => h.1.allSC a (.inr hc)⟩
  | subscriptionsAdded => exact nil_good (good_change h rfl (fun _ x => .inl x) .inl .inl)
  | subscriptionsCompleted => exact good_allSubscriptions o _ h (fun x => h.1.sc (.inr (.inr (.inr (.inr x)))))

end

/-! ## The network -/

def pubOf : Out → Option ParticipantState
  | .published s => some s
  | _ => none

/-- What a reaction of a lifecycle changes elsewhere. -/
structure Framed (p : String) (outs : List Out) (n n' : Net) : Prop where
  cfg : ∀ q, (n'.nodes q).cfg = (n.nodes q).cfg
  life : ∀ q, (n'.nodes q).life = (n.nodes q).life
  monitor : ∀ q, (n'.nodes q).monitor = (n.nodes q).monitor
  joined : ∀ q, (n'.nodes q).joined = (n.nodes q).joined
  listening : ∀ q, (n'.nodes q).listening = (n.nodes q).listening
  posted : ∀ q, (n'.nodes q).posted = (n.nodes q).posted
  workflow : ∀ q, (n'.nodes q).workflow = (n.nodes q).workflow
  status : ∀ q, (n'.nodes q).status = if q = p then (outs.filterMap pubOf).getLast?.or (n.nodes q).status else (n.nodes q).status
  chan : ∀ a b, n'.chan a b = if a = p ∧ (n.nodes b).joined = true then n.chan a b ++ (outs.filterMap pubOf).map Msg.status else n.chan a b

theorem publish_fold (p : String) (outs : List Out) (n : Net) : Framed p outs n (outs.foldl (Net.publish p) n) := by
  induction outs generalizing n with
  | nil => exact ⟨fun _ => rfl, fun _ => rfl, fun _ => rfl, fun _ => rfl, fun _ => rfl, fun _ => rfl, fun _ => rfl, by simp, by simp⟩
  | cons x outs ih =>
    rw [List.foldl_cons]
    have h := ih (n.publish p x)
    cases hx : pubOf x with
    | none =>
      have hn : n.publish p x = n := by
        unfold Net.publish
        split
        · simp [pubOf] at hx
        · rfl
      rw [hn] at h ⊢
      refine ⟨h.cfg, h.life, h.monitor, h.joined, h.listening, h.posted, h.workflow, ?_, ?_⟩
      · simpa [List.filterMap_cons, hx] using h.status
      · simpa [List.filterMap_cons, hx] using h.chan
    | some s =>
      have hxs : x = .published s := by
        cases x <;> simp [pubOf] at hx
        rw [hx]
      subst hxs
      have hnode : ∀ q, (n.publish p (.published s)).nodes q = if q = p then { n.nodes p with status := some s } else n.nodes q := fun q => rfl
      have key : ∀ {α : Type} (f : Node → α) (hf : ∀ x s, f { x with status := s } = f x) (q : String), f ((n.publish p (.published s)).nodes q) = f (n.nodes q) := by
        intro α f hf q
        rw [hnode]
        split
        · rename_i h; rw [h, hf]
        · rfl
      refine ⟨fun q => (h.cfg q).trans (key _ (fun _ _ => rfl) q), fun q => (h.life q).trans (key _ (fun _ _ => rfl) q), fun q => (h.monitor q).trans (key _ (fun _ _ => rfl) q),
        fun q => (h.joined q).trans (key _ (fun _ _ => rfl) q), fun q => (h.listening q).trans (key _ (fun _ _ => rfl) q), fun q => (h.posted q).trans (key _ (fun _ _ => rfl) q),
        fun q => (h.workflow q).trans (key _ (fun _ _ => rfl) q), fun q => ?_, fun a b => ?_⟩
      · rw [h.status, hnode]
        by_cases hq : q = p
        · simp only [hq, if_true, List.filterMap_cons, pubOf]
          cases hl : outs.filterMap pubOf with
          | nil => rfl
          | cons y ys =>
            simp [List.getLast?_cons_cons]
            rw [List.getLast?_eq_some_getLast (List.cons_ne_nil y ys)]
            rfl
        · simp [hq]
      · rw [h.chan]
        have hj : ((n.publish p (.published s)).nodes b).joined = (n.nodes b).joined := key (·.joined) (fun _ _ => rfl) b
        rw [hj]
        have hc : (n.publish p (.published s)).chan a b = if a = p ∧ (n.nodes b).joined = true then n.chan a b ++ [.status s] else n.chan a b := by
          show (if a = p ∧ ((n.set p { n.nodes p with status := some s }).nodes b).joined = true then _ else _) = _
          have : ((n.set p { n.nodes p with status := some s }).nodes b).joined = (n.nodes b).joined := hj
          rw [this]
          rfl
        rw [hc]
        by_cases hab : a = p ∧ (n.nodes b).joined = true
        · rw [if_pos hab, if_pos hab, if_pos hab]
          simp [List.filterMap_cons, pubOf]
        · rw [if_neg hab, if_neg hab, if_neg hab]

/-- What a reaction does, in one place. -/
theorem react_spec (n : Net) (p : String) (e : Lifecycle.Event) (o : Throws) :
    Framed p (Lifecycle.on (n.nodes p).cfg (n.nodes p).life e o).2 (n.set p { n.nodes p with life := (Lifecycle.on (n.nodes p).cfg (n.nodes p).life e o).1 }) (n.react p e o).1 :=
  publish_fold p _ _

/-! ## Nobody runs too early: the system -/

/-- The system monitor of a participant. -/
structure TI (R : List String) (t : SystemState.Tracker) (tr : Trace) : Prop where
  cache : ∀ q s, t.status q = some s → s = .error ∨ s = .invalid ∨ Pub tr q s
  req : t.required = [] ∨ ∀ q ∈ R, q ∈ t.required
  sys : Justified R tr t.system

theorem just_mono {R : List String} {tr : Trace} {s : ParticipantState} (h : Justified R tr s) (new : Trace) : Justified R (tr ++ new) s :=
  ⟨fun x => all_mono (h.1 x) _, fun x => all_mono (h.2.1 x) _, fun x => all_mono (h.2.2 x) _⟩

theorem TI_mono {R : List String} {t : SystemState.Tracker} {tr : Trace} (h : TI R t tr) (new : Trace) : TI R t (tr ++ new) where
  cache q s x := (h.cache q s x).imp_right (Or.imp_right (List.mem_append_left _))
  req := h.req
  sys := just_mono h.sys new

theorem just_other {R : List String} {tr : Trace} {s : ParticipantState} (h1 : s ≠ .servicesCreated) (h2 : s ≠ .communicationInitialized) (h3 : s ≠ .readyToRun) : Justified R tr s :=
  ⟨fun x => absurd x h1, fun x => absurd x h2, fun x => absurd x h3⟩

theorem lookup_filter_ne (c : List (String × ParticipantState)) (p q : String) : (c.filter (fun e => decide (e.1 ≠ p))).lookup q = if q = p then none else c.lookup q := by
  induction c with
  | nil => simp
  | cons x c ih =>
    obtain ⟨a, b⟩ := x
    by_cases hp : a = p
    · rw [List.filter_cons_of_neg (by simp [hp]), ih]
      by_cases hq : q = p
      · simp [hq]
      · rw [if_neg hq, if_neg hq, List.lookup_cons]
        have : (q == a) = false := by simp [hp, hq]
        rw [this]
    · rw [List.filter_cons_of_pos (by simp [hp]), List.lookup_cons, List.lookup_cons, ih]
      by_cases hqa : q = a
      · have : q ≠ p := fun e => hp (hqa.symm.trans e)
        simp [hqa, this, hp]
      · have : (q == a) = false := by simp [hqa]
        rw [this]

theorem status_setStatus (t : SystemState.Tracker) (p q : String) (s : ParticipantState) : (t.setStatus p s).status q = if q = p then some s else t.status q := by
  unfold SystemState.Tracker.setStatus SystemState.Tracker.status
  rw [List.lookup_cons, lookup_filter_ne]
  by_cases h : q = p
  · simp [h]
  · have : (q == p) = false := by simp [h]
    rw [this, if_neg h, if_neg h]

theorem just_base {R : List String} {t : SystemState.Tracker} {tr : Trace} (h : Justified R tr t.system) : Justified R tr t.base := by
  unfold SystemState.Tracker.base
  split
  · split <;> exact just_other (by simp) (by simp) (by simp)
  · exact h

theorem just_firstOf {R : List String} {t : SystemState.Tracker} {tr : Trace} (h : Justified R tr t.system) (alts : List (ParticipantState × List ParticipantState))
    (ha : ∀ x ∈ alts, t.allIn x.2 = true → Justified R tr x.1) : Justified R tr (t.firstOf alts) := by
  induction alts with
  | nil => exact just_base h
  | cons x alts ih =>
    obtain ⟨k, states⟩ := x
    unfold SystemState.Tracker.firstOf
    split
    · rename_i hall
      exact ha (k, states) List.mem_cons_self hall
    · exact ih (fun y hy => ha y (List.mem_cons_of_mem _ hy))

theorem just_compute {cfgs : String → Config} {R : List String} {t : SystemState.Tracker} {tr : Trace} (hs : SafeT cfgs R tr)
    (hcache : ∀ q s, t.status q = some s → s = .error ∨ s = .invalid ∨ Pub tr q s) (hsys : Justified R tr t.system) {s : ParticipantState}
    (hreq : (∀ q ∈ R, q ∈ t.required) ∨ s = .invalid) : Justified R tr (t.compute s) := by
  unfold SystemState.Tracker.compute
  split
  · exact just_other (by simp) (by simp) (by simp)
  · exact just_other (by simp) (by simp) (by simp)
  · rcases hreq with hreq | rfl
    · apply just_firstOf hsys
      have hin : ∀ states : List ParticipantState, .error ∉ states → .invalid ∉ states → t.allIn states = true → ∀ q ∈ R, ∃ k ∈ states, Pub tr q k := by
        intro states he hi hall q hq
        have h1 := List.all_eq_true.mp hall q (hreq q hq)
        cases hst : t.status q with
        | none => rw [hst] at h1; cases h1
        | some k =>
          rw [hst] at h1
          have hk : k ∈ states := by simpa using h1
          rcases hcache q k hst with rfl | rfl | hp
          · exact absurd hk he
          · exact absurd hk hi
          · exact ⟨k, hk, hp⟩
      cases s with
      | servicesCreated =>
        simp only [SystemState.alternatives, List.mem_singleton, forall_eq]
        intro hall
        refine ⟨fun _ q hq => ?_, (fun x => nomatch x), (fun x => nomatch x)⟩
        obtain ⟨k, hk, hp⟩ := hin _ (by simp) (by simp) hall q hq
        simp only [List.mem_cons, List.not_mem_nil, or_false] at hk
        rcases hk with rfl | rfl | rfl | rfl | rfl
        · exact hp
        · exact hs.ciing q hp
        · exact hs.ci q hp
        · exact hs.ci q (hs.rtr q hp)
        · exact hs.ci q (hs.rtr q (hs.run q hp))
      | communicationInitialized =>
        simp only [SystemState.alternatives, List.mem_singleton, forall_eq]
        intro hall
        refine ⟨(fun x => nomatch x), fun _ q hq => ?_, (fun x => nomatch x)⟩
        obtain ⟨k, hk, hp⟩ := hin _ (by simp) (by simp) hall q hq
        simp only [List.mem_cons, List.not_mem_nil, or_false] at hk
        rcases hk with rfl | rfl | rfl
        · exact hp
        · exact hs.rtr q hp
        · exact hs.rtr q (hs.run q hp)
      | readyToRun =>
        simp only [SystemState.alternatives, List.mem_singleton, forall_eq]
        intro hall
        refine ⟨(fun x => nomatch x), (fun x => nomatch x), fun _ q hq => ?_⟩
        obtain ⟨k, hk, hp⟩ := hin _ (by simp) (by simp) hall q hq
        simp only [List.mem_cons, List.not_mem_nil, or_false] at hk
        rcases hk with rfl | rfl
        · exact hp
        · exact hs.run q hp
      | _ =>
        intro x hx
        simp only [SystemState.alternatives, List.mem_cons, List.not_mem_nil, or_false] at hx <;>
        first
          | (rcases hx with rfl | rfl | rfl | rfl | rfl <;> exact fun _ => just_other (by simp) (by simp) (by simp))
          | (subst hx; exact fun _ => just_other (by simp) (by simp) (by simp))
    · exact just_base hsys

theorem anyRequired_nil {t : SystemState.Tracker} (h : t.required = []) : t.anyRequired = .invalid := by
  unfold SystemState.Tracker.anyRequired
  rw [h]

theorem TI_update {cfgs : String → Config} {R : List String} {t : SystemState.Tracker} {tr : Trace} (hs : SafeT cfgs R tr) (h : TI R t tr) {p : String} {s : ParticipantState}
    (hp : s = .error ∨ s = .invalid ∨ Pub tr p s) : TI R (t.update p s).tracker tr := by
  have hset : ∀ s, s = .error ∨ s = .invalid ∨ Pub tr p s → TI R (t.setStatus p s) tr := by
    intro s hp
    refine ⟨fun q k hk => ?_, h.req, h.sys⟩
    rw [status_setStatus] at hk
    split at hk
    · rename_i hq
      cases hk
      rw [hq]
      exact hp
    · exact h.cache q k hk
  have h1 := hset s hp
  unfold SystemState.Tracker.update
  dsimp only
  split
  · split
    · exact hset _ (.inr (.inl rfl))
    · exact h
  · split
    · exact h
    · split
      · exact h1
      · split
        · rename_i hc
          have hr : ∀ q ∈ R, q ∈ (t.setStatus p s).required := by
            rcases h.req with h0 | h0
            · have : t.required.contains p = true := hc
              rw [h0] at this
              cases this
            · exact h0
          exact ⟨h1.cache, h1.req, just_compute hs h1.cache h1.sys (.inl hr)⟩
        · exact h1

theorem TI_remove {cfgs : String → Config} {R : List String} {t : SystemState.Tracker} {tr : Trace} (hs : SafeT cfgs R tr) (h : TI R t tr) (p : String) : TI R (t.remove p).1 tr := by
  unfold SystemState.Tracker.remove
  split
  · exact h
  · generalize ht' : ({ t with cache := t.cache.filter (fun e => e.1 ≠ p) } : SystemState.Tracker) = t'
    have hc : ∀ q s, t'.status q = some s → s = .error ∨ s = .invalid ∨ Pub tr q s := by
      intro q s hq
      subst ht'
      have : (t.cache.filter (fun e => decide (e.1 ≠ p))).lookup q = some s := hq
      rw [lookup_filter_ne] at this
      split at this
      · cases this
      · exact h.cache q s this
    have hr : t'.required = t.required := by subst ht'; rfl
    have hy : t'.system = t.system := by subst ht'; rfl
    refine ⟨hc, by show t'.required = [] ∨ _; rw [hr]; exact h.req, ?_⟩
    refine just_compute hs hc (by rw [hy]; exact h.sys) ?_
    rcases h.req with h0 | h0
    · exact .inr (anyRequired_nil (hr.trans h0))
    · exact .inl (fun q hq => by show q ∈ t'.required; rw [hr]; exact h0 q hq)

theorem TI_require {cfgs : String → Config} {R : List String} {t : SystemState.Tracker} {tr : Trace} (hs : SafeT cfgs R tr) (h : TI R t tr) {names : List String} (hn : ∀ q ∈ R, q ∈ names) :
    TI R (t.require names).1 tr := by
  unfold SystemState.Tracker.require
  exact ⟨h.cache, .inr hn, just_compute (t := { t with required := names }) hs h.cache h.sys (.inl hn)⟩

/-- What a message must satisfy. -/
def okMsg (R : List String) (tr : Trace) (q : String) : Msg → Prop
  | .status s => Pub tr q s
  | .workflow names => ∀ r ∈ R, r ∈ names

theorem okMsg_mono {R : List String} {tr : Trace} {q : String} {m : Msg} (h : okMsg R tr q m) (new : Trace) : okMsg R (tr ++ new) q m := by
  cases m with
  | status s => exact List.mem_append_left _ h
  | workflow names => exact h

theorem sysOut_receive (m : SystemState.Monitor) (p : String) (s k : ParticipantState) (h : SystemState.Out.systemState k ∈ (m.receive p s).2) : k = (m.receive p s).1.tracker.system := by
  unfold SystemState.Monitor.receive at h ⊢
  simp only [List.mem_append] at h
  rcases h with (h | h) | h
  · split at h <;> simp at h
  · split at h <;> simp at h
  · split at h
    · simpa using h
    · cases h

/-- The monitor after an event, and the system states it reports. -/
theorem monitor_on {cfgs : String → Config} {R : List String} {tr : Trace} (hs : SafeT cfgs R tr) {m : SystemState.Monitor} (h : TI R m.tracker tr) {e : SystemState.Event}
    (he : (∀ p s, e = .status p s → Pub tr p s) ∧ ∀ names, e = .workflow names → ∀ q ∈ R, q ∈ names) :
    TI R (m.on e).1.tracker tr ∧ ∀ k, SystemState.Out.systemState k ∈ (m.on e).2 → Justified R tr k := by
  cases e with
  | status p s =>
    have := TI_update hs h (p := p) (s := s) (.inr (.inr (he.1 p s rfl)))
    refine ⟨this, fun k hk => ?_⟩
    rw [sysOut_receive m p s k hk]
    exact this.sys
  | workflow names =>
    have := TI_require hs h (he.2 names rfl)
    refine ⟨this, fun k hk => ?_⟩
    simp only [SystemState.Monitor.on, SystemState.Monitor.workflow] at hk
    split at hk
    · simp only [List.mem_singleton, SystemState.Out.systemState.injEq] at hk
      rw [hk]
      exact this.sys
    · cases hk
  | connected p =>
    simp only [SystemState.Monitor.on, SystemState.Monitor.onConnected]
    split
    · exact ⟨h, fun k hk => by cases hk⟩
    · exact ⟨h, fun k hk => by simp at hk⟩
  | disconnected p =>
    have h1 : TI R (m.reportCrash p).1.tracker tr ∧ ∀ k, SystemState.Out.systemState k ∈ (m.reportCrash p).2 → Justified R tr k := by
      unfold SystemState.Monitor.reportCrash
      split
      · exact ⟨h, fun k hk => by cases hk⟩
      · exact ⟨h, fun k hk => by cases hk⟩
      · exact ⟨h, fun k hk => by cases hk⟩
      · have := TI_update hs h (p := p) (s := .error) (.inl rfl)
        refine ⟨this, fun k hk => ?_⟩
        rw [sysOut_receive m p _ k hk]
        exact this.sys
    have h2 := TI_remove hs h1.1 p
    refine ⟨h2, fun k hk => ?_⟩
    simp only [SystemState.Monitor.on, List.mem_append] at hk
    rcases hk with hk | hk
    · exact h1.2 k hk
    · simp only [SystemState.Monitor.forget, List.mem_append] at hk
      rcases hk with hk | hk
      · split at hk
        · simp only [List.mem_singleton, SystemState.Out.systemState.injEq] at hk
          rw [hk]
          exact h2.sys
        · cases hk
      · simp at hk

/-- The whole simulation. -/
structure GI (cfgs : String → Config) (R : List String) (n : Net) (tr : Trace) : Prop where
  cfg : ∀ p, (n.nodes p).cfg = cfgs p
  life : ∀ p, LI (cfgs p) R p (n.nodes p).life tr
  safe : SafeT cfgs R tr
  mon : ∀ p, TI R (n.nodes p).monitor.tracker tr
  chan : ∀ q p, ∀ m ∈ n.chan q p, okMsg R tr q m
  hist : ∀ q s, (n.nodes q).status = some s → Pub tr q s
  work : ∀ q names, (n.nodes q).workflow = some names → ∀ r ∈ R, r ∈ names

theorem GI_react {cfgs : String → Config} {R : List String} {n : Net} {tr : Trace} (h : GI cfgs R n tr) (p : String) (e : Lifecycle.Event) (o : Throws) (he : ∀ s, e = .systemState s → Justified R tr s) :
    GI cfgs R (n.react p e o).1 (tr ++ (n.react p e o).2) := by
  have hf := react_spec n p e o
  have hg := good_on ⟨h.life p, h.safe⟩ e he o
  have htr : (n.react p e o).2 = (Lifecycle.on (n.nodes p).cfg (n.nodes p).life e o).2.map (p, ·) := rfl
  rw [htr]
  generalize (n.react p e o).1 = n' at *
  rw [h.cfg p] at hf ⊢
  generalize hr : Lifecycle.on (cfgs p) (n.nodes p).life e o = r at *
  have hset : ∀ {α : Type} (f : Node → α) (hf : ∀ x l, f { x with life := l } = f x) (q : String), f ((n.set p { n.nodes p with life := r.1 }).nodes q) = f (n.nodes q) := by
    intro α f hf q
    show f (if q = p then _ else _) = _
    split
    · rename_i hq; rw [hq, hf]
    · rfl
  have hpub : ∀ s ∈ r.2.filterMap pubOf, Pub (tr ++ r.2.map (p, ·)) p s := by
    intro s hs
    obtain ⟨x, hx, hxs⟩ := List.mem_filterMap.mp hs
    cases x <;> simp [pubOf] at hxs
    subst hxs
    exact List.mem_append_right _ (List.mem_map_of_mem hx)
  refine ⟨fun q => ?_, fun q => ?_, hg.2, fun q => ?_, fun a b m hm => ?_, fun q s hs => ?_, fun q names hn => ?_⟩
  · rw [hf.cfg, hset (·.cfg) (fun _ _ => rfl), h.cfg]
  · rw [hf.life]
    show LI _ _ _ (if q = p then _ else _ : Node).life _
    split
    · rename_i hq; rw [hq]; exact hg.1
    · exact LI_mono (h.life q) _
  · rw [hf.monitor, hset (·.monitor) (fun _ _ => rfl)]
    exact TI_mono (h.mon q) _
  · rw [hf.chan] at hm
    split at hm
    · rename_i hab
      rcases List.mem_append.mp hm with hm | hm
      · exact okMsg_mono (h.chan a b m hm) _
      · obtain ⟨s, hs, rfl⟩ := List.mem_map.mp hm
        rw [hab.1]
        exact hpub s hs
    · exact okMsg_mono (h.chan a b m hm) _
  · rw [hf.status] at hs
    have hst : ((n.set p { n.nodes p with life := r.1 }).nodes q).status = (n.nodes q).status := hset (·.status) (fun _ _ => rfl) q
    rw [hst] at hs
    split at hs
    · rename_i hq
      cases hl : (r.2.filterMap pubOf).getLast? with
      | none =>
        rw [hl] at hs
        exact List.mem_append_left _ (h.hist q s hs)
      | some k =>
        rw [hl] at hs
        have hk : k = s := by simpa using hs
        rw [hq, ← hk]
        exact hpub k (List.mem_of_getLast? hl)
    · exact List.mem_append_left _ (h.hist q s hs)
  · rw [hf.workflow] at hn
    have : ((n.set p { n.nodes p with life := r.1 }).nodes q).workflow = (n.nodes q).workflow := hset (·.workflow) (fun _ _ => rfl) q
    rw [this] at hn
    exact h.work q names hn

theorem GI_set {cfgs : String → Config} {R : List String} {n : Net} {tr : Trace} (h : GI cfgs R n tr) (p : String) (x : Node) (hc : x.cfg = (n.nodes p).cfg) (hl : x.life = (n.nodes p).life)
    (hm : TI R x.monitor.tracker tr) (hs : x.status = (n.nodes p).status) (hw : ∀ names, x.workflow = some names → ∀ r ∈ R, r ∈ names) : GI cfgs R (n.set p x) tr := by
  have hn : ∀ q, (n.set p x).nodes q = if q = p then x else n.nodes q := fun q => rfl
  refine ⟨fun q => ?_, fun q => ?_, h.safe, fun q => ?_, h.chan, fun q s => ?_, fun q names => ?_⟩
  · rw [hn]; split
    · rename_i hq; rw [hc, hq]; exact h.cfg p
    · exact h.cfg q
  · rw [hn]; split
    · rename_i hq; rw [hl, hq]; exact h.life p
    · exact h.life q
  · rw [hn]; split
    · exact hm
    · exact h.mon q
  · rw [hn]; split
    · rename_i hq; rw [hs, hq]; exact h.hist p s
    · exact h.hist q s
  · rw [hn]; split
    · exact hw names
    · exact h.work q names

theorem GI_tell {cfgs : String → Config} {R : List String} {tr : Trace} (p : String) (o : Throws) (outs : List SystemState.Out) {r : Net × Trace} (h : GI cfgs R r.1 (tr ++ r.2))
    (hj : ∀ k, SystemState.Out.systemState k ∈ outs → Justified R (tr ++ r.2) k) : GI cfgs R (outs.foldl (Net.tell p o) r).1 (tr ++ (outs.foldl (Net.tell p o) r).2) := by
  induction outs generalizing r with
  | nil => exact h
  | cons x outs ih =>
    rw [List.foldl_cons]
    have hj' : ∀ k, SystemState.Out.systemState k ∈ outs → Justified R (tr ++ r.2) k := fun k hk => hj k (List.mem_cons_of_mem _ hk)
    cases x with
    | systemState s =>
      by_cases hl : (r.1.nodes p).listening = true
      · have hr := GI_react h p (.systemState s) o (fun k hk => by cases hk; exact hj s List.mem_cons_self)
        have ht : Net.tell p o r (.systemState s) = ((r.1.react p (.systemState s) o).1, r.2 ++ (r.1.react p (.systemState s) o).2) := by
          simp [Net.tell, hl]
        rw [ht]
        rw [List.append_assoc] at hr
        refine ih hr (fun k hk => ?_)
        have := just_mono (hj' k hk) (r.1.react p (.systemState s) o).2
        rw [List.append_assoc] at this
        exact this
      · have ht : Net.tell p o r (.systemState s) = r := by simp [Net.tell, hl]
        rw [ht]
        exact ih h hj'
    | participantStatus a b => exact ih h hj'
    | connected a => exact ih h hj'
    | disconnected a => exact ih h hj'
    | exception => exact ih h hj'

theorem GI_monitor {cfgs : String → Config} {R : List String} {n : Net} {tr : Trace} (h : GI cfgs R n tr) (p : String) (e : SystemState.Event) (o : Throws)
    (he : (∀ q s, e = .status q s → Pub tr q s) ∧ ∀ names, e = .workflow names → ∀ q ∈ R, q ∈ names) : GI cfgs R (n.monitor p e o).1 (tr ++ (n.monitor p e o).2) := by
  obtain ⟨h1, h2⟩ := monitor_on h.safe (h.mon p) he
  unfold Net.monitor
  refine GI_tell p o _ ?_ ?_
  · rw [List.append_nil]
    exact GI_set h p _ rfl rfl h1 rfl (h.work p)
  · rw [List.append_nil]
    exact h2

theorem GI_chan {cfgs : String → Config} {R : List String} {n : Net} {tr : Trace} (h : GI cfgs R n tr) (chan : String → String → List Msg) (hc : ∀ q p, ∀ m ∈ chan q p, okMsg R tr q m) :
    GI cfgs R { n with chan := chan } tr := ⟨h.cfg, h.life, h.safe, h.mon, hc, h.hist, h.work⟩

theorem GI_step {cfgs : String → Config} {R : List String} {n : Net} {tr : Trace} (h : GI cfgs R n tr) (e : Event) (he : ∀ p names, e = .configure p names → ∀ r ∈ R, r ∈ names) :
    GI cfgs R (n.step e).1 (tr ++ (n.step e).2) := by
  cases e with
  | join p =>
    show GI cfgs R (n.join p) (tr ++ [])
    rw [List.append_nil]
    unfold Net.join
    split
    · exact h
    · have hs := GI_set h p { n.nodes p with joined := true } rfl rfl (h.mon p) rfl (h.work p)
      refine GI_chan hs _ (fun a b m hm => ?_)
      split at hm
      · simp only [Node.history, List.mem_append, Option.mem_toList, Option.map_eq_some_iff] at hm
        rcases hm with ⟨w, hw, rfl⟩ | ⟨s, hs, rfl⟩
        · exact h.work a w hw
        · exact h.hist a s hs
      · exact h.chan a b m hm
  | start p o =>
    show GI cfgs R (n.start p o).1 (tr ++ (n.start p o).2)
    unfold Net.start
    split
    · rw [List.append_nil]; exact h
    · have hs := GI_set h p { n.nodes p with listening := true, posted := true } rfl rfl (h.mon p) rfl (h.work p)
      refine GI_react hs p _ o ?_
      intro s hs
      cases hs
      exact (h.mon p).sys
  | life p e o =>
    show GI cfgs R (n.life p e o).1 (tr ++ (n.life p e o).2)
    unfold Net.life
    split
    · rw [List.append_nil]; exact h
    · split
      · have hs := GI_set h p { n.nodes p with posted := false } rfl rfl (h.mon p) rfl (h.work p)
        exact GI_react hs p .init o (fun s hs => by cases hs)
      · rw [List.append_nil]; exact h
    · rename_i hne _
      exact GI_react h p _ o (fun s hs => absurd hs (hne s))
  | configure p names =>
    show GI cfgs R (n.configure p names) (tr ++ [])
    rw [List.append_nil]
    unfold Net.configure
    split
    · have hs := GI_set h p { n.nodes p with workflow := some names } rfl rfl (h.mon p) rfl (fun x hx => by cases hx; exact he p names rfl)
      refine GI_chan hs _ (fun a b m hm => ?_)
      split at hm
      · rcases List.mem_append.mp hm with hm | hm
        · exact h.chan a b m hm
        · rw [List.mem_singleton] at hm
          rw [hm]
          exact he p names rfl
      · exact h.chan a b m hm
    · exact h
  | deliver q p o =>
    show GI cfgs R (n.deliver q p o).1 (tr ++ (n.deliver q p o).2)
    unfold Net.deliver
    split
    · rw [List.append_nil]; exact h
    · rename_i m rest hm
      have hok := h.chan q p m (by rw [hm]; exact List.mem_cons_self)
      refine GI_monitor (GI_chan h _ (fun a b x hx => ?_)) p _ o ?_
      · split at hx
        · rename_i hab
          rw [hab.1]
          exact h.chan q p x (by rw [hm]; exact List.mem_cons_of_mem _ hx)
        · exact h.chan a b x hx
      · cases m with
        | status s => exact ⟨fun a b hab => by cases hab; exact hok, fun names hn => by cases hn⟩
        | workflow names => exact ⟨fun a b hab => (nomatch hab), fun names hn => by cases hn; exact hok⟩
  | lost p q o =>
    refine GI_monitor (GI_chan h _ (fun a b x hx => ?_)) p _ o ⟨fun a b hab => (nomatch hab), fun names hn => (nomatch hn)⟩
    split at hx
    · cases hx
    · exact h.chan a b x hx

theorem GI_run {cfgs : String → Config} {R : List String} (es : List Event) {n : Net} {tr : Trace} (h : GI cfgs R n tr) (he : ∀ p names, Event.configure p names ∈ es → ∀ r ∈ R, r ∈ names) :
    GI cfgs R (Net.run es n).1 (tr ++ (Net.run es n).2) := by
  induction es generalizing n tr with
  | nil =>
    show GI cfgs R n (tr ++ [])
    rw [List.append_nil]; exact h
  | cons e es ih =>
    show GI cfgs R (Net.run es (n.step e).1).1 (tr ++ ((n.step e).2 ++ (Net.run es (n.step e).1).2))
    rw [← List.append_assoc]
    exact ih (GI_step h e (fun p names hp => he p names (by rw [hp]; exact List.mem_cons_self))) (fun p names hp => he p names (List.mem_cons_of_mem _ hp))

theorem GI_init (cfgs : String → Config) (R req : List String) (hreq : req = [] ∨ ∀ q ∈ R, q ∈ req) : GI cfgs R (Net.init cfgs req) [] where
  cfg _ := rfl
  life p := ⟨by simp [Net.init], by simp [Net.init], by simp [Net.init], by simp [Net.init], by simp [Net.init]⟩
  safe := ⟨fun _ h => (nomatch h), fun _ h => (nomatch h), fun _ h => (nomatch h), fun _ h => (nomatch h), fun a p x b h => (by cases a <;> cases h)⟩
  mon p := ⟨fun q s h => (by cases h), hreq, just_other (by simp [Net.init]) (by simp [Net.init]) (by simp [Net.init])⟩
  chan _ _ m h := by cases h
  hist _ _ h := by cases h
  work _ _ h := by cases h

end SilKit.Startup
