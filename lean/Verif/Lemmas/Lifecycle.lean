import Verif.Spec.Lifecycle
/-!
# Lemmas about the participant lifecycle
-/
namespace SilKit.Lifecycle
open Spec

/-- An observer of the trace: the last two states published, and whether a handler was called since. -/
structure Obs where
  prev : ParticipantState := .invalid
  cur : ParticipantState := .invalid
  flag : Bool := false

def Obs.next (m : Obs) : Out → Obs
  | .published s => ⟨m.cur, s, false⟩
  | .called _ => { m with flag := true }
  | _ => m

/-- What the observer accepts. -/
def Obs.Ok (E : ParticipantState → ParticipantState → Prop) (m : Obs) : Out → Prop
  | .published s => E m.cur s
  | .called h => m.cur = stateOf h ∧ m.flag = false ∧ ∀ x, h = .abort x → x = m.prev
  | .future s => s = m.cur
  | _ => True

def Obs.after (m : Obs) (tr : List Out) : Obs := tr.foldl Obs.next m

def Obs.Accepts (E : ParticipantState → ParticipantState → Prop) : Obs → List Out → Prop
  | _, [] => True
  | m, o :: tr => m.Ok E o ∧ (m.next o).Accepts E tr

theorem Obs.accepts_append {E} (m : Obs) (a b : List Out) : m.Accepts E (a ++ b) ↔ m.Accepts E a ∧ (m.after a).Accepts E b := by
  induction a generalizing m with
  | nil => simp [Accepts, after]
  | cons o a ih => simp only [List.cons_append, Accepts, ih, after, List.foldl_cons, and_assoc]

theorem Obs.after_append (m : Obs) (a b : List Out) : m.after (a ++ b) = (m.after a).after b := List.foldl_append ..

theorem published_append (a b : List Out) : published (a ++ b) = published a ++ published b := List.filterMap_append ..
theorem called_append (a b : List Out) : called (a ++ b) = called a ++ called b := List.filterMap_append ..

/-- While resting, a handler has been called in the current state only if it is the asynchronous communication ready handler. -/
def Tie (cfg : Config) (l : Life) (m : Obs) : Prop :=
  m.cur = l.state ∧
  (m.flag = true → l.state = .communicationInitialized ∧ l.commInvoked = true ∧ cfg.commReady = some true)

/-- The participant rests: it stays in the other states only while handlers are executed. -/
def AtRest (l : Life) : Prop := l.state ≠ .stopping ∧ l.state ≠ .shuttingDown ∧ l.state ≠ .aborting

/-- A reaction is accepted by the observer and ends at rest. -/
def Good (E : ParticipantState → ParticipantState → Prop) (cfg : Config) (l : Life) (r : Life × List Out) : Prop :=
  ∀ m, Tie cfg l m → m.Accepts E r.2 ∧ Tie cfg r.1 (m.after r.2) ∧ AtRest r.1

theorem Good.andThen {E cfg l r f} (h : Good E cfg l r) (hf : Good E cfg r.1 (f r.1)) : Good E cfg l (andThen r f) := by
  intro m hm
  obtain ⟨h1, h2, -⟩ := h m hm
  obtain ⟨h4, h5, h6⟩ := hf _ h2
  exact ⟨(m.accepts_append ..).mpr ⟨h1, h4⟩, by rw [Lifecycle.andThen, m.after_append]; exact h5, h6⟩

theorem Good.stay {E cfg l} {l' : Life} (h : AtRest l) (hs : l'.state = l.state) (hc : l'.commInvoked = l.commInvoked) :
    Good E cfg l (l', []) := by
  intro m hm
  refine ⟨trivial, ⟨hm.1.trans hs.symm, fun hf => ?_⟩, ?_⟩
  · rw [hs, hc]; exact hm.2 hf
  · unfold AtRest; rw [hs]; exact h

/-- Fields that the transitions do not depend on may differ. -/
theorem Good.of_eq {E cfg} {l l' : Life} {r} (h : Good E cfg l' r) (hs : l'.state = l.state) (hc : l'.commInvoked = l.commInvoked) :
    Good E cfg l r := by
  intro m hm
  exact h m ⟨hm.1.trans hs.symm, fun hf => by rw [hs, hc]; exact hm.2 hf⟩

variable {E : ParticipantState → ParticipantState → Prop}

theorem setState_good (cfg : Config) (l : Life) (s : ParticipantState) (he : E l.state s)
    (hs : s ≠ .stopping ∧ s ≠ .shuttingDown ∧ s ≠ .aborting) : Good E cfg l (setState l s) := by
  intro m hm
  refine ⟨⟨?_, trivial⟩, ⟨rfl, fun h => by simp [setState, Obs.after, Obs.next] at h⟩, hs⟩
  simpa [Obs.Ok, hm.1] using he

section
variable (hE : ∀ a b, Edge a b → E a b)
include hE

theorem error_good (cfg : Config) (l : Life) (h : AtRest l) : Good E cfg l (error l) := by
  unfold error
  split
  · exact Good.stay h rfl rfl
  · rename_i hn
    refine setState_good cfg l .error (hE _ _ ?_) (by simp)
    have := h.2.1
    have := h.2.2
    cases hs : l.state <;> simp_all [Edge]

theorem abort_good (cfg : Config) (l : Life) (h : AtRest l) : Good E cfg l (abort cfg l) := by
  intro m hm
  have h0 := hm.1
  have e1 : Edge .aborting .shutdown := trivial
  have := hE _ _ e1
  have e2 : ∀ s, s ≠ .stopping ∧ s ≠ .shuttingDown ∧ s ≠ .aborting ∧ s ≠ .shutdown → E s .aborting :=
    fun s hs => hE _ _ (by cases s <;> simp_all [Edge])
  have e3 := e2 l.state
  unfold abort resolveAbort Lifecycle.andThen setState callAfterAllReplied
  cases hs : l.state <;> rw [hs] at h0 e3 <;> simp at e3 <;> cases hc : cfg.abort <;>
    simp_all [Obs.Accepts, Obs.Ok, Obs.next, Obs.after, Tie, AtRest, stateOf]

theorem shutdown_good (cfg : Config) (l : Life) (h : AtRest l) : Good E cfg l (shutdown cfg l) := by
  have e1 := hE .stopped .shuttingDown trivial
  have e2 := hE .error .shuttingDown trivial
  have e3 := hE .shuttingDown .shutdown trivial
  unfold shutdown
  cases hs : l.state <;> first
    | exact error_good hE cfg l h
    | exact Good.stay h rfl rfl
    | (intro m hm
       have h0 := hm.1
       unfold shutdownInShuttingDown Lifecycle.andThen setState callAfterAllReplied
       cases cfg.shutdown <;> simp_all [Obs.Accepts, Obs.Ok, Obs.next, Obs.after, Tie, AtRest, stateOf])

theorem stop_good (cfg : Config) (o : Throws) (l : Life) (h : AtRest l) : Good E cfg l (stop cfg o l) := by
  have e1 := hE .running .stopping trivial
  have e2 := hE .paused .stopping trivial
  have e3 := hE .stopping .stopped trivial
  have e4 := hE .stopping .error (by simp [Edge])
  unfold stop
  cases hs : l.state <;> first
    | exact shutdown_good hE cfg l h
    | exact Good.stay h rfl rfl
    | (intro m hm
       have h0 := hm.1
       unfold stopInStopping Lifecycle.andThen setState callAfterAllReplied
       cases cfg.stop <;> cases o.stop <;> simp_all [Obs.Accepts, Obs.Ok, Obs.next, Obs.after, Tie, AtRest, stateOf])

theorem readyToRunIn_good (cfg : Config) (o : Throws) (l : Life) (h : l.state = .readyToRun) :
    Good E cfg l (readyToRunInReadyToRun cfg o l) := by
  have e1 := hE .readyToRun .running trivial
  have e2 := hE .readyToRun .error (by simp [Edge])
  intro m hm
  have h0 := hm.1
  have h1 : m.flag = false := by
    rcases hf : m.flag with _ | _
    · rfl
    · have := (hm.2 hf).1; rw [h] at this; cases this
  unfold readyToRunInReadyToRun Lifecycle.andThen setState
  cases cfg.timeSync <;> cases cfg.starting <;> cases o.starting <;>
    simp_all [Obs.Accepts, Obs.Ok, Obs.next, Obs.after, Tie, AtRest, stateOf]

theorem readyToRun_good (cfg : Config) (o : Throws) (l : Life) (h : AtRest l) : Good E cfg l (readyToRun cfg o l) := by
  unfold readyToRun
  cases hs : l.state <;> first
    | exact error_good hE cfg l h
    | exact readyToRunIn_good hE cfg o l hs
    | exact Good.stay h rfl rfl
    | (intro m hm
       exact ⟨⟨trivial, trivial⟩, hm, h⟩)

theorem completeCommReadyIn_good (cfg : Config) (o : Throws) (l : Life) (h : l.state = .communicationInitialized) :
    Good E cfg l (completeCommReadyInInitialized cfg o l) := by
  unfold completeCommReadyInInitialized
  refine Good.andThen (setState_good cfg l _ (hE _ _ (by simp [Edge, h])) (by simp)) ?_
  split
  · exact readyToRunIn_good hE cfg o _ rfl
  · exact Good.stay (by simp [AtRest, setState]) rfl rfl

theorem commInitializedIn_good (cfg : Config) (o : Throws) (l : Life) (h : l.state = .communicationInitialized) :
    Good E cfg l (commInitializedInInitialized cfg o l) := by
  have e1 : E l.state .error := hE _ _ (by simp [Edge, h])
  have hr : AtRest l := by simp [AtRest, h]
  unfold commInitializedInInitialized
  split
  · exact completeCommReadyIn_good hE cfg o l h
  · rename_i hc
    split
    · exact Good.stay hr rfl rfl
    · rename_i hi
      intro m hm
      have h0 := hm.1
      have h1 : m.flag = false := by
        rcases hf : m.flag with _ | _
        · rfl
        · exact absurd (hm.2 hf).2.1 hi
      unfold Lifecycle.andThen setState
      cases o.commReady <;> simp_all [Obs.Accepts, Obs.Ok, Obs.next, Obs.after, Tie, AtRest, stateOf]
  · rename_i hc
    intro m hm
    have h1 : m.flag = false := by
      rcases hf : m.flag with _ | _
      · rfl
      · have := (hm.2 hf).2.2; rw [hc] at this; simp at this
    have hok : m.Ok E (.called .commReady) := ⟨hm.1.trans h, h1, by simp⟩
    unfold Lifecycle.andThen
    rcases ho : o.commReady with _ | _
    · simp only [Bool.false_eq_true, if_false, List.singleton_append]
      unfold completeCommReadyInInitialized Lifecycle.andThen
      have h4 : Good E cfg (setState l .readyToRun).1
          (if cfg.autonomous then readyToRunInReadyToRun cfg o (setState l .readyToRun).1 else ((setState l .readyToRun).1, [])) := by
        split
        · exact readyToRunIn_good hE cfg o _ rfl
        · exact Good.stay (by simp [AtRest, setState]) rfl rfl
      obtain ⟨h5, h6, h7⟩ := h4 ⟨m.cur, .readyToRun, false⟩ ⟨rfl, by simp⟩
      refine ⟨⟨hok, ?_, h5⟩, h6, h7⟩
      show E m.cur .readyToRun
      rw [hm.1, h]
      exact hE _ _ trivial
    · simp only [if_true, List.singleton_append]
      refine ⟨⟨hok, ?_, trivial⟩, ⟨rfl, by simp [setState, Obs.after, Obs.next]⟩, by simp [AtRest, setState]⟩
      show E m.cur .error
      rw [hm.1]
      exact e1

theorem commInitialized_good (cfg : Config) (o : Throws) (l : Life) (h : AtRest l) : Good E cfg l (commInitialized cfg o l) := by
  unfold commInitialized
  cases hs : l.state <;> first
    | exact error_good hE cfg l h
    | exact commInitializedIn_good hE cfg o l hs
    | exact Good.stay h rfl rfl
    | (dsimp only
       split
       · exact readyToRunIn_good hE cfg o l hs
       · exact Good.stay h rfl rfl)

theorem completeCommReady_good (cfg : Config) (o : Throws) (l : Life) (h : AtRest l) :
    Good E cfg l (completeCommReady cfg o l) := by
  unfold completeCommReady
  split
  · exact completeCommReadyIn_good hE cfg o l ‹_›
  · exact error_good hE cfg l h

theorem subscriptionsDone_good (cfg : Config) (o : Throws) (l : Life) (h : E l.state .communicationInitialized) :
    Good E cfg l (subscriptionsDone cfg o l) := by
  unfold subscriptionsDone
  refine Good.andThen (setState_good cfg l _ h (by simp)) ?_
  split
  · exact commInitializedIn_good hE cfg o _ rfl
  · exact Good.stay (by simp [AtRest, setState]) rfl rfl

theorem awaitSubscriptions_good (cfg : Config) (o : Throws) (l : Life) (h : l.state = .communicationInitializing) :
    Good E cfg l (awaitSubscriptions cfg o l) := by
  unfold awaitSubscriptions
  split
  · exact Good.stay (by simp [AtRest, h]) rfl rfl
  · exact subscriptionsDone_good hE cfg o l (hE _ _ (by simp [Edge, h]))

theorem complete_good (cfg : Config) (o : Throws) (c : Completion) (l : Life) (h : AtRest l)
    (hl : c = .servicesCreated → E l.state .communicationInitializing) : Good E cfg l (complete cfg o c l) := by
  unfold complete
  cases c with
  | servicesCreated =>
    exact Good.andThen (setState_good cfg l _ (hl rfl) (by simp)) (awaitSubscriptions_good hE cfg o _ rfl)
  | stopped => exact shutdown_good hE cfg l h
  | final =>
    dsimp only
    split
    · exact Good.stay h rfl rfl
    · unfold Lifecycle.andThen setFinalStatePromise
      dsimp only
      intro m hm
      split
      · exact ⟨⟨trivial, trivial⟩, hm, h⟩
      · exact ⟨⟨trivial, hm.1.symm, trivial⟩, hm, h⟩

theorem servicesCreated_good (cfg : Config) (o : Throws) (l : Life) (h : AtRest l) : Good E cfg l (servicesCreated cfg o l) := by
  unfold servicesCreated
  cases hs : l.state <;> first
    | exact error_good hE cfg l h
    | exact awaitSubscriptions_good hE cfg o l hs
    | exact Good.stay h rfl rfl

theorem newSystemState_good (cfg : Config) (o : Throws) (s : ParticipantState) (l : Life) (h : AtRest l) :
    Good E cfg l (newSystemState cfg o s l) := by
  unfold newSystemState
  split
  · exact Good.stay h rfl rfl
  · split
    · exact servicesCreated_good hE cfg o l h
    · exact commInitialized_good hE cfg o l h
    · exact readyToRun_good hE cfg o l h
    · split
      · exact Good.of_eq (stop_good hE cfg o { l with stopDueToSystem := true } h) rfl rfl
      · exact Good.stay h rfl rfl
    · split
      · exact Good.of_eq (stop_good hE cfg o { l with stopDueToSystem := true } h) rfl rfl
      · exact Good.stay h rfl rfl
    · exact Good.stay h rfl rfl

/-- Every reaction to an event other than the completion of the subscriptions. -/
theorem on_good (cfg : Config) (l : Life) (e : Event) (o : Throws) (h : AtRest l) (hsub : e ≠ .subscriptionsCompleted)
    (h1 : (∃ b, e = .barrierStart b ∧ l.active = none ∧ b = true ∧ l.pending.head? = some .servicesCreated) ∨
      (e = .barrierDone ∧ l.active = some .servicesCreated) → E l.state .communicationInitializing) :
    Good E cfg l (on cfg l e o) := by
  cases e with
  | init =>
    unfold on initState; dsimp only
    cases hs : l.state <;> first
      | exact error_good hE cfg l h
      | exact Good.stay h rfl rfl
      | exact setState_good cfg l _ (hE _ _ (by simp [Edge, hs])) (by simp)
  | startAutonomous =>
    unfold on; dsimp only
    split
    · exact servicesCreated_good hE cfg o l h
    · exact Good.stay h rfl rfl
  | systemState s => exact newSystemState_good hE cfg o s l h
  | completeAsync => unfold on; dsimp only; split <;> exact Good.stay h rfl rfl
  | completeCommReady =>
    unfold on; dsimp only
    split
    · exact Good.stay h rfl rfl
    · rename_i n _
      exact Good.of_eq (completeCommReady_good hE cfg o { l with completing := n } h) rfl rfl
  | reportError =>
    unfold on reportError; dsimp only
    split
    · exact Good.stay h rfl rfl
    · exact error_good hE cfg l h
  | pause =>
    unfold on pause; dsimp only
    split
    · rename_i hs
      exact setState_good cfg l _ (hE _ _ (by simp [Edge, hs])) (by simp)
    · exact fun m hm => ⟨⟨trivial, trivial⟩, hm, h⟩
  | resume =>
    unfold on resume; dsimp only
    split
    · rename_i hs
      exact setState_good cfg l _ (hE _ _ (by simp [Edge, hs])) (by simp)
    · exact fun m hm => ⟨⟨trivial, trivial⟩, hm, h⟩
  | stop => exact stop_good hE cfg o l h
  | abort => exact abort_good hE cfg l h
  | barrierStart alone =>
    unfold on barrierStart; dsimp only
    split
    · exact Good.stay h rfl rfl
    · rename_i c rest hp
      split
      · exact fun m hm => ⟨⟨trivial, trivial⟩, hm, h⟩
      · rename_i ha
        have ha : l.active = none := by simpa using ha
        split
        · rename_i hal
          refine Good.of_eq (complete_good hE cfg o c { l with pending := rest } h ?_) rfl rfl
          rintro rfl
          exact h1 (Or.inl ⟨_, rfl, ha, hal, by simp [hp]⟩)
        · exact Good.stay h rfl rfl
  | barrierDone =>
    unfold on barrierDone; dsimp only
    split
    · exact Good.stay h rfl rfl
    · rename_i c ha
      refine Good.of_eq (complete_good hE cfg o c { l with active := none } h ?_) rfl rfl
      rintro rfl
      exact h1 (Or.inr ⟨rfl, ha⟩)
  | subscriptionsAdded => exact Good.stay h rfl rfl
  | subscriptionsCompleted => exact absurd rfl hsub

end

/-- The edges when late steps are not excluded. -/
def LooseEdge (a b : ParticipantState) : Prop := Edge a b ∨ b = .communicationInitializing ∨ b = .communicationInitialized

theorem on_good_loose (cfg : Config) (l : Life) (e : Event) (o : Throws) (h : AtRest l) : Good LooseEdge cfg l (on cfg l e o) := by
  by_cases hs : e = .subscriptionsCompleted
  · subst hs
    unfold on
    dsimp only
    generalize l.subsWaiting = n
    induction n generalizing l with
    | zero => exact Good.stay h rfl rfl
    | succ n ih =>
      have h1 : Good LooseEdge cfg l (subscriptionsDone cfg o l) :=
        subscriptionsDone_good (fun _ _ => Or.inl) cfg o l (Or.inr (Or.inr rfl))
      exact Good.andThen h1 (ih _ (h1 ⟨.invalid, l.state, false⟩ ⟨rfl, by simp⟩).2.2)
  · exact on_good (fun _ _ => Or.inl) cfg l e o h hs (fun _ => Or.inr (Or.inl rfl))

theorem on_good_timely (cfg : Config) (l : Life) (e : Event) (o : Throws) (h : AtRest l) (h1 : ¬ LateReplies l e)
    (h2 : ¬ LateSubscriptions l e) : Good Edge cfg l (on cfg l e o) := by
  by_cases hs : e = .subscriptionsCompleted
  · subst hs
    unfold on; dsimp only
    rcases hw : l.subsWaiting with _ | n
    · exact Good.stay h rfl rfl
    · have : ¬ (l.state ≠ .communicationInitializing ∨ l.subsWaiting ≠ 1) := fun hn => h2 ⟨by omega, hn⟩
      have hst : l.state = .communicationInitializing := Decidable.byContradiction fun hn => this (Or.inl hn)
      have hn : n = 0 := by
        rcases Decidable.em (l.subsWaiting = 1) with h | h
        · omega
        · exact absurd (Or.inr h) this
      subst hn
      have h1 : Good Edge cfg l (subscriptionsDone cfg o l) :=
        subscriptionsDone_good (fun _ _ h => h) cfg o l (by simp [Edge, hst])
      exact Good.andThen h1 (Good.stay (h1 ⟨.invalid, l.state, false⟩ ⟨rfl, by simp⟩).2.2 rfl rfl)
  · refine on_good (fun _ _ h => h) cfg l e o h hs ?_
    rintro (⟨b, rfl, ha, hb, hp⟩ | ⟨rfl, ha⟩)
    · have : l.state = .servicesCreated := Decidable.byContradiction fun hn => h1 ⟨ha, hb, hp, hn⟩
      simp [Edge, this]
    · have : l.state = .servicesCreated := Decidable.byContradiction fun hn => h1 ⟨ha, hn⟩
      simp [Edge, this]

theorem run_append (cfg : Config) (h : History) (e : Event × Throws) :
    run cfg (h ++ [e]) = andThen (run cfg h) (fun l => on cfg l e.1 e.2) := by simp [run]

theorem timely_prefix {cfg h e} (ht : Timely cfg (h ++ [e])) : Timely cfg h := by
  intro pre e' o post heq
  exact ht pre e' o (post ++ [e]) (by simp [heq])

theorem timely_last {cfg h e} (ht : Timely cfg (h ++ [e])) :
    ¬ LateReplies (run cfg h).1 e.1 ∧ ¬ LateSubscriptions (run cfg h).1 e.1 :=
  ht h e.1 e.2 [] (by simp)

theorem run_good_loose (cfg : Config) (h : History) :
    Obs.Accepts LooseEdge {} (run cfg h).2 ∧ Tie cfg (run cfg h).1 (Obs.after {} (run cfg h).2) ∧ AtRest (run cfg h).1 := by
  rw [← List.reverse_reverse h]
  induction h.reverse with
  | nil => exact ⟨trivial, ⟨rfl, by simp [run, Obs.after]⟩, by simp [run, AtRest]⟩
  | cons e h ih =>
    rw [List.reverse_cons, run_append]
    obtain ⟨h1, h2, h3⟩ := ih
    obtain ⟨h4, h5, h6⟩ := on_good_loose cfg _ e.1 e.2 h3 _ h2
    exact ⟨(Obs.accepts_append ..).mpr ⟨h1, h4⟩, by rw [andThen, Obs.after_append]; exact h5, h6⟩

theorem run_good (cfg : Config) (h : History) (ht : Timely cfg h) : Obs.Accepts Edge {} (run cfg h).2 := by
  rw [← List.reverse_reverse h] at ht ⊢
  generalize h.reverse = h at ht ⊢
  induction h with
  | nil => trivial
  | cons e h ih =>
    rw [List.reverse_cons] at ht ⊢
    rw [run_append]
    obtain ⟨-, h2, h3⟩ := run_good_loose cfg h.reverse
    obtain ⟨h4, -, -⟩ := on_good_timely cfg _ e.1 e.2 h3 (timely_last ht).1 (timely_last ht).2 _ h2
    exact (Obs.accepts_append ..).mpr ⟨ih (timely_prefix ht), h4⟩

/-! ### What acceptance means -/

theorem after_cur (m : Obs) (tr : List Out) : (m.after tr).cur = (published tr).getLastD m.cur := by
  induction tr generalizing m with
  | nil => rfl
  | cons o tr ih =>
    rw [Obs.after, List.foldl_cons]
    have := ih (m.next o)
    rw [Obs.after] at this
    rw [this]
    cases o with
    | published s => rw [show published (Out.published s :: tr) = s :: published tr from rfl, List.getLastD_cons]; rfl
    | _ => rfl

theorem accepts_adjacent {m : Obs} {tr : List Out} (h : m.Accepts E tr) {a b : ParticipantState}
    (hab : Adjacent (m.cur :: published tr) a b) : E a b := by
  induction tr generalizing m with
  | nil =>
    obtain ⟨pre, post, he⟩ := hab
    have := congrArg List.length he
    simp [published] at this
    omega
  | cons o tr ih =>
    obtain ⟨h1, h2⟩ := h
    cases o with
    | published s =>
      obtain ⟨pre, post, he⟩ := hab
      cases pre with
      | nil =>
        simp [published] at he
        obtain ⟨rfl, rfl, -⟩ := he
        exact h1
      | cons p pre =>
        simp [published] at he
        exact ih h2 ⟨pre, post, by simpa [Obs.next, published] using he.2⟩
    | _ => exact ih h2 hab

theorem accepts_split {m : Obs} {pre post : List Out} {o : Out} (h : m.Accepts E (pre ++ o :: post)) : (m.after pre).Ok E o :=
  (((m.accepts_append pre _).mp h).2).1

theorem after_last_two (m : Obs) (tr : List Out) :
    ∃ p, m.prev :: m.cur :: published tr = p ++ [(m.after tr).prev, (m.after tr).cur] := by
  induction tr generalizing m with
  | nil => exact ⟨[], rfl⟩
  | cons o tr ih =>
    obtain ⟨p, hp⟩ := ih (m.next o)
    cases o with
    | published s => exact ⟨m.prev :: p, by rw [List.cons_append]; exact congrArg (m.prev :: ·) hp⟩
    | _ => exact ⟨p, hp⟩

/-- The handlers that may have been called before or in a state. -/
def bound (m : Obs) : Nat :=
  match m.cur with
  | .invalid | .servicesCreated | .communicationInitializing => 0
  | .communicationInitialized => if m.flag then 1 else 0
  | .readyToRun => if m.flag then 2 else 1
  | .running | .paused => 2
  | .stopping => if m.flag then 3 else 2
  | .stopped | .error => 3
  | .shuttingDown | .aborting => if m.flag then 4 else 3
  | .shutdown => 4

theorem bound_next {m : Obs} {o : Out} (h : m.Ok Edge o) :
    bound m ≤ bound (m.next o) ∧ ∀ c, o = .called c → bound m ≤ order c ∧ order c < bound (m.next o) := by
  cases o with
  | published s =>
    refine ⟨?_, by simp⟩
    obtain ⟨p, c, f⟩ := m
    change Edge c s at h
    cases c <;> cases s <;> first
      | exact h.elim
      | (exfalso; simp [Edge] at h; done)
      | (cases f <;> simp [bound, Obs.next])
  | called c =>
    obtain ⟨h1, h2, -⟩ := h
    obtain ⟨p, cur, f⟩ := m
    dsimp only at h1 h2
    subst h1 h2
    cases c <;> simp [bound, Obs.next, order, stateOf]
  | _ => exact ⟨Nat.le_refl _, by simp⟩

theorem accepts_order {m : Obs} {tr : List Out} (h : m.Accepts Edge tr) :
    (called tr).Pairwise (fun a b => order a < order b) ∧ (∀ c ∈ called tr, bound m ≤ order c) := by
  induction tr generalizing m with
  | nil => exact ⟨List.Pairwise.nil, by simp [called]⟩
  | cons o tr ih =>
    obtain ⟨h1, h2⟩ := h
    obtain ⟨ih1, ih2⟩ := ih h2
    obtain ⟨hb, hc⟩ := bound_next h1
    have hle : ∀ c ∈ called tr, bound m ≤ order c := fun c hc' => Nat.le_trans hb (ih2 c hc')
    cases o with
    | called c =>
      rw [show called (Out.called c :: tr) = c :: called tr from rfl]
      obtain ⟨h3, h4⟩ := hc c rfl
      refine ⟨List.Pairwise.cons (fun b hb' => Nat.lt_of_lt_of_le h4 (ih2 b hb')) ih1, ?_⟩
      intro b hb'
      rcases List.mem_cons.mp hb' with rfl | hb'
      · exact h3
      · exact hle b hb'
    | _ => exact ⟨ih1, hle⟩

/-! ### The final future -/

/-- The completions of the future. -/
def futures (tr : List Out) : List ParticipantState :=
  tr.filterMap (fun o => match o with | .future s => some s | _ => none)

theorem futures_append (a b : List Out) : futures (a ++ b) = futures a ++ futures b := List.filterMap_append ..

/-- A reaction that does not deal with the requests to wait for the other participants, except for adding some; entering Shutdown
adds one. -/
structure Frame (l : Life) (r : Life × List Out) : Prop where
  active : r.1.active = l.active
  pending : ∀ c ∈ l.pending, c ∈ r.1.pending
  final : r.1.finalSet = l.finalSet
  futures : futures r.2 = []
  shutdown : r.1.state = .shutdown → l.state = .shutdown ∨ .final ∈ r.1.pending

theorem Frame.andThen {l r f} (h : Frame l r) (hf : Frame r.1 (f r.1)) : Frame l (andThen r f) where
  active := hf.active.trans h.active
  pending := fun c hc => hf.pending c (h.pending c hc)
  final := hf.final.trans h.final
  futures := by rw [Lifecycle.andThen, futures_append, h.futures, hf.futures]; rfl
  shutdown := fun hs => by
    rcases hf.shutdown hs with h1 | h1
    · rcases h.shutdown h1 with h2 | h2
      · exact Or.inl h2
      · exact Or.inr (hf.pending _ h2)
    · exact Or.inr h1

theorem Frame.stay {l : Life} {tr} (h : Lifecycle.futures tr = []) : Frame l (l, tr) := ⟨rfl, fun _ h => h, rfl, h, Or.inl⟩

theorem setState_frame (l : Life) (s : ParticipantState) (h : s ≠ .shutdown) : Frame l (setState l s) :=
  ⟨rfl, fun _ h => h, rfl, rfl, fun hs => absurd hs h⟩

theorem error_frame (l : Life) : Frame l (error l) := by
  unfold error
  split
  · exact Frame.stay rfl
  · exact setState_frame l _ (by simp)

theorem callAfterAllReplied_frame (l : Life) (c : Completion) : Frame l (callAfterAllReplied l c) :=
  ⟨rfl, fun _ h => List.mem_append_left _ h, rfl, rfl, Or.inl⟩

theorem shutdownIn_frame (cfg : Config) (l : Life) : Frame l (shutdownInShuttingDown cfg l) := by
  refine ⟨rfl, fun _ h => List.mem_append_left _ h, rfl, ?_, fun _ => Or.inr (by simp [shutdownInShuttingDown, andThen, callAfterAllReplied, setState])⟩
  unfold shutdownInShuttingDown andThen setState callAfterAllReplied
  cases cfg.shutdown <;> rfl

theorem resolveAbort_frame (cfg : Config) (l : Life) : Frame l (resolveAbort cfg l) := by
  refine ⟨rfl, fun _ h => List.mem_append_left _ h, rfl, ?_, fun _ => Or.inr (by simp [resolveAbort, andThen, callAfterAllReplied, setState])⟩
  unfold resolveAbort andThen setState callAfterAllReplied
  cases cfg.abort <;> rfl

theorem abort_frame (cfg : Config) (l : Life) : Frame l (abort cfg l) := by
  unfold abort
  split
  · exact Frame.stay rfl
  · exact Frame.stay rfl
  · exact Frame.stay rfl
  · exact Frame.stay rfl
  · exact Frame.andThen (Frame.andThen (Frame.stay rfl) (setState_frame _ _ (by simp))) (resolveAbort_frame ..)
  · exact Frame.andThen (setState_frame _ _ (by simp)) (resolveAbort_frame ..)

theorem shutdown_frame (cfg : Config) (l : Life) : Frame l (shutdown cfg l) := by
  unfold shutdown
  split
  · exact Frame.andThen (setState_frame _ _ (by simp)) (shutdownIn_frame ..)
  · exact Frame.andThen (setState_frame _ _ (by simp)) (shutdownIn_frame ..)
  · exact shutdownIn_frame ..
  · exact callAfterAllReplied_frame ..
  · exact ⟨rfl, fun _ h => List.mem_append_left _ h, rfl, rfl, fun _ => Or.inr (by simp [andThen, callAfterAllReplied, setState])⟩
  · exact error_frame l

theorem stopIn_frame (cfg : Config) (o : Throws) (l : Life) : Frame l (stopInStopping cfg o l) := by
  refine Frame.andThen (Frame.stay (by cases cfg.stop <;> rfl)) ?_
  dsimp only
  split
  · exact setState_frame _ _ (by simp)
  · exact Frame.andThen (setState_frame _ _ (by simp)) (callAfterAllReplied_frame ..)

theorem stop_frame (cfg : Config) (o : Throws) (l : Life) : Frame l (stop cfg o l) := by
  unfold stop
  split
  · exact Frame.andThen (Frame.andThen (Frame.stay rfl) (setState_frame _ _ (by simp))) (stopIn_frame ..)
  · exact Frame.andThen (setState_frame _ _ (by simp)) (stopIn_frame ..)
  · exact stopIn_frame ..
  · exact callAfterAllReplied_frame ..
  · exact shutdown_frame ..
  · exact Frame.stay rfl

theorem readyToRunIn_frame (cfg : Config) (o : Throws) (l : Life) : Frame l (readyToRunInReadyToRun cfg o l) := by
  unfold readyToRunInReadyToRun
  split
  · exact Frame.andThen (setState_frame _ _ (by simp)) (Frame.stay rfl)
  · refine Frame.andThen (Frame.stay (by cases cfg.starting <;> rfl)) ?_
    dsimp only
    split <;> exact setState_frame _ _ (by simp)

theorem readyToRun_frame (cfg : Config) (o : Throws) (l : Life) : Frame l (readyToRun cfg o l) := by
  unfold readyToRun
  split
  · exact readyToRunIn_frame ..
  · exact Frame.stay rfl
  · exact Frame.stay rfl
  · exact error_frame l

theorem completeCommReadyIn_frame (cfg : Config) (o : Throws) (l : Life) : Frame l (completeCommReadyInInitialized cfg o l) := by
  refine Frame.andThen (setState_frame _ _ (by simp)) ?_
  split
  · exact readyToRunIn_frame ..
  · exact Frame.stay rfl

theorem commInitializedIn_frame (cfg : Config) (o : Throws) (l : Life) : Frame l (commInitializedInInitialized cfg o l) := by
  unfold commInitializedInInitialized
  split
  · exact completeCommReadyIn_frame ..
  · split
    · exact Frame.stay rfl
    · refine Frame.andThen ⟨rfl, fun _ h => h, rfl, rfl, Or.inl⟩ ?_
      split
      · exact setState_frame _ _ (by simp)
      · exact Frame.stay rfl
  · refine Frame.andThen (Frame.stay rfl) ?_
    split
    · exact setState_frame _ _ (by simp)
    · exact completeCommReadyIn_frame ..

theorem commInitialized_frame (cfg : Config) (o : Throws) (l : Life) : Frame l (commInitialized cfg o l) := by
  unfold commInitialized
  split
  · exact commInitializedIn_frame ..
  · split
    · exact readyToRunIn_frame ..
    · exact Frame.stay rfl
  · exact Frame.stay rfl
  · exact Frame.stay rfl
  · exact error_frame l

theorem subscriptionsDone_frame (cfg : Config) (o : Throws) (l : Life) : Frame l (subscriptionsDone cfg o l) := by
  refine Frame.andThen (setState_frame _ _ (by simp)) ?_
  split
  · exact commInitializedIn_frame ..
  · exact Frame.stay rfl

theorem awaitSubscriptions_frame (cfg : Config) (o : Throws) (l : Life) : Frame l (awaitSubscriptions cfg o l) := by
  unfold awaitSubscriptions
  split
  · exact ⟨rfl, fun _ h => h, rfl, rfl, Or.inl⟩
  · exact subscriptionsDone_frame ..

theorem servicesCreated_frame (cfg : Config) (o : Throws) (l : Life) : Frame l (servicesCreated cfg o l) := by
  unfold servicesCreated
  split
  · exact callAfterAllReplied_frame ..
  · exact awaitSubscriptions_frame ..
  · exact error_frame l

theorem allSubscriptionsDone_frame (cfg : Config) (o : Throws) (n : Nat) (l : Life) : Frame l (allSubscriptionsDone cfg o n l) := by
  induction n generalizing l with
  | zero => exact ⟨rfl, fun _ h => h, rfl, rfl, Or.inl⟩
  | succ n ih => exact Frame.andThen (subscriptionsDone_frame ..) (ih _)

theorem newSystemState_frame (cfg : Config) (o : Throws) (s : ParticipantState) (l : Life) : Frame l (newSystemState cfg o s l) := by
  have h : Frame l (stop cfg o { l with stopDueToSystem := true }) := by
    have := stop_frame cfg o { l with stopDueToSystem := true }
    exact ⟨this.active, this.pending, this.final, this.futures, this.shutdown⟩
  unfold newSystemState
  split
  · exact Frame.stay rfl
  · split
    · exact servicesCreated_frame ..
    · exact commInitialized_frame ..
    · exact readyToRun_frame ..
    · split
      · exact h
      · exact Frame.stay rfl
    · split
      · exact h
      · exact Frame.stay rfl
    · exact Frame.stay rfl

theorem on_frame (cfg : Config) (l : Life) (e : Event) (o : Throws) (h1 : ∀ b, e ≠ .barrierStart b) (h2 : e ≠ .barrierDone) :
    Frame l (on cfg l e o) := by
  cases e with
  | init =>
    unfold on initState; dsimp only
    split
    · exact setState_frame _ _ (by simp)
    · exact Frame.stay rfl
    · exact Frame.stay rfl
    · exact Frame.stay rfl
    · exact error_frame l
  | startAutonomous =>
    unfold on; dsimp only
    split
    · exact servicesCreated_frame ..
    · exact Frame.stay rfl
  | systemState s => exact newSystemState_frame ..
  | completeAsync =>
    unfold on; dsimp only
    split <;> exact ⟨rfl, fun _ h => h, rfl, rfl, Or.inl⟩
  | completeCommReady =>
    unfold on; dsimp only
    split
    · exact Frame.stay rfl
    · unfold completeCommReady
      split
      · rename_i n _ _
        have := completeCommReadyIn_frame cfg o { l with completing := n }
        exact ⟨this.active, this.pending, this.final, this.futures, this.shutdown⟩
      · rename_i n _ _
        have := error_frame { l with completing := n }
        exact ⟨this.active, this.pending, this.final, this.futures, this.shutdown⟩
  | reportError =>
    unfold on reportError; dsimp only
    split
    · exact Frame.stay rfl
    · exact error_frame l
  | pause =>
    unfold on pause; dsimp only
    split
    · exact setState_frame _ _ (by simp)
    · exact Frame.stay rfl
  | resume =>
    unfold on resume; dsimp only
    split
    · exact setState_frame _ _ (by simp)
    · exact Frame.stay rfl
  | stop => exact stop_frame ..
  | abort => exact abort_frame ..
  | barrierStart alone => exact absurd rfl (h1 alone)
  | barrierDone => exact absurd rfl h2
  | subscriptionsAdded => exact ⟨rfl, fun _ h => h, rfl, rfl, Or.inl⟩
  | subscriptionsCompleted => exact allSubscriptionsDone_frame ..

/-- The future is completed exactly when the model says so. -/
def Counted (l : Life) (r : Life × List Out) : Prop := (futures r.2).length + l.finalSet.toNat = r.1.finalSet.toNat

theorem Frame.counted {l r} (h : Frame l r) : Counted l r := by rw [Counted, h.futures, h.final]; simp

theorem complete_counted (cfg : Config) (o : Throws) (c : Completion) (l : Life) : Counted l (complete cfg o c l) := by
  cases c with
  | servicesCreated => exact (Frame.andThen (setState_frame _ _ (by simp)) (awaitSubscriptions_frame ..)).counted
  | stopped => exact (shutdown_frame ..).counted
  | final =>
    unfold complete Counted setFinalStatePromise andThen
    dsimp only
    split
    · simp [futures]
    · split
      · simp [futures]
      · rename_i h
        have : l.finalSet = false := by simpa using h
        simp [futures, this]

theorem on_counted (cfg : Config) (l : Life) (e : Event) (o : Throws) : Counted l (on cfg l e o) := by
  by_cases h1 : ∃ b, e = .barrierStart b
  · obtain ⟨b, rfl⟩ := h1
    unfold on barrierStart
    dsimp only
    split
    · exact (Frame.stay rfl).counted
    · split
      · simp [Counted, futures]
      · split
        · exact complete_counted cfg o _ { l with pending := _ }
        · simp [Counted, futures]
  · by_cases h2 : e = .barrierDone
    · subst h2
      unfold on barrierDone
      dsimp only
      split
      · exact (Frame.stay rfl).counted
      · exact complete_counted cfg o _ { l with active := none }
    · exact (on_frame cfg l e o (fun b hb => h1 ⟨b, hb⟩) h2).counted

theorem run_counted (cfg : Config) (h : History) : (futures (run cfg h).2).length = (run cfg h).1.finalSet.toNat := by
  rw [← List.reverse_reverse h]
  induction h.reverse with
  | nil => rfl
  | cons e h ih =>
    rw [List.reverse_cons, run_append]
    have := on_counted cfg (run cfg h.reverse).1 e.1 e.2
    unfold Counted at this
    unfold andThen
    rw [futures_append, List.length_append]
    dsimp only
    omega

/-- In Shutdown, the completion of the future is on its way. -/
def OnItsWay (l : Life) : Prop := l.state = .shutdown → l.finalSet = true ∨ .final ∈ l.pending ∨ l.active ≠ none

theorem Frame.onItsWay {l r} (h : Frame l r) (hl : OnItsWay l) : OnItsWay r.1 := by
  intro hs
  rw [h.final, h.active]
  rcases h.shutdown hs with h1 | h1
  · rcases hl h1 with h2 | h2 | h2
    · exact Or.inl h2
    · exact Or.inr (Or.inl (h.pending _ h2))
    · exact Or.inr (Or.inr h2)
  · exact Or.inr (Or.inl h1)

theorem final_onItsWay (cfg : Config) (o : Throws) (l : Life) : OnItsWay (complete cfg o .final l).1 := by
  intro hs
  unfold complete at hs ⊢
  dsimp only at hs ⊢
  split at hs
  · rename_i he
    rw [he] at hs
    cases hs
  · rename_i he
    rw [if_neg he]
    unfold andThen setFinalStatePromise
    dsimp only
    split
    · exact Or.inl ‹_›
    · exact Or.inl rfl

/-- Completing anything but a late step keeps the future on its way. -/
theorem complete_onItsWay (cfg : Config) (o : Throws) (c : Completion) (l : Life)
    (hl : l.state = .shutdown → l.finalSet = true ∨ .final ∈ l.pending ∨ c ≠ .servicesCreated)
    (hc : c = .servicesCreated → l.state ≠ .shutdown) : OnItsWay (complete cfg o c l).1 := by
  cases c with
  | servicesCreated =>
    exact Frame.onItsWay (Frame.andThen (setState_frame _ _ (by simp)) (awaitSubscriptions_frame ..))
      (fun hs => absurd hs (hc rfl))
  | stopped =>
    unfold complete
    dsimp only
    by_cases hs : l.state = .shutdown
    · unfold shutdown
      rw [hs]
      exact fun _ => Or.inr (Or.inl (by simp [callAfterAllReplied]))
    · exact (shutdown_frame cfg l).onItsWay (fun h => absurd h hs)
  | final => exact final_onItsWay cfg o l

theorem on_onItsWay (cfg : Config) (l : Life) (e : Event) (o : Throws) (hl : OnItsWay l) (h : ¬ LateReplies l e) :
    OnItsWay (on cfg l e o).1 := by
  by_cases h1 : ∃ b, e = .barrierStart b
  · obtain ⟨b, rfl⟩ := h1
    unfold on barrierStart
    dsimp only
    split
    · exact hl
    · rename_i c rest hp
      split
      · rename_i ha
        intro _
        exact Or.inr (Or.inr (by dsimp only; intro hn; rw [hn] at ha; simp at ha))
      · rename_i ha
        have ha : l.active = none := by simpa using ha
        split
        · rename_i hb
          refine complete_onItsWay cfg o c { l with pending := rest } ?_ ?_
          · intro hs
            rcases hl hs with h2 | h2 | h2
            · exact Or.inl h2
            · rw [hp] at h2
              rcases List.mem_cons.mp h2 with rfl | h2
              · exact Or.inr (Or.inr (by simp))
              · exact Or.inr (Or.inl h2)
            · exact absurd ha h2
          · rintro rfl hs
            exact h ⟨ha, hb, by simp [hp], by dsimp only at hs; rw [hs]; simp⟩
        · exact fun _ => Or.inr (Or.inr (by simp))
  · by_cases h2 : e = .barrierDone
    · subst h2
      unfold on barrierDone
      dsimp only
      split
      · exact hl
      · rename_i c ha
        refine complete_onItsWay cfg o c { l with active := none } ?_ ?_
        · intro _
          by_cases hc : c = .servicesCreated
          · subst hc
            by_cases hs : l.state = .servicesCreated
            · rename_i hx; dsimp only at hx; rw [hx] at hs; cases hs
            · exact absurd ⟨ha, hs⟩ h
          · exact Or.inr (Or.inr hc)
        · rintro rfl hs
          exact h ⟨ha, by dsimp only at hs; rw [hs]; simp⟩
    · exact (on_frame cfg l e o (fun b hb => h1 ⟨b, hb⟩) h2).onItsWay hl

theorem run_onItsWay (cfg : Config) (h : History) (ht : Timely cfg h) : OnItsWay (run cfg h).1 := by
  rw [← List.reverse_reverse h] at ht ⊢
  generalize h.reverse = h at ht ⊢
  induction h with
  | nil => intro hs; cases hs
  | cons e h ih =>
    rw [List.reverse_cons] at ht ⊢
    rw [run_append]
    exact on_onItsWay cfg _ e.1 e.2 (ih (timely_prefix ht)) (timely_last ht).1

end SilKit.Lifecycle
