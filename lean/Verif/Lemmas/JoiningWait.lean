import Verif.Lemmas.Joining
/-!
# Lemmas about the start of the wait for replies (C26)
-/
namespace SilKit.Joining
open SilKit.Joining.Spec

/-- The user's thread has been told to go on, or is about to be told. -/
def Woken (s : State) : Prop := s.started = true ∨ s.user = .notifyWaiting ∨ s.io = .notifyWaiting

def late (p : Pc) : Bool := decide (p = .checkReplied) || decide (p = .setReplied) || decide (p = .notifySuccess)

structure Waits (s : State) (t : List Out) : Prop where
  stage : s.stage = .waitingForAllReplies → Woken s
  pcs : late s.user = true ∨ late s.io = true → Woken s
  done : s.completed = true → Woken s
  count : (t.filter isStartWaiting).length = s.started.toNat
  result : ∀ r, .result r ∈ t → s.completed = true

/-- Steps that change neither flag nor the stage. -/
theorem Waits.plain {s s' : State} {t o : List Out} (h : Waits s t) (h1 : s'.stage = s.stage) (h2 : s'.started = s.started) (h3 : s'.completed = s.completed)
    (hu : s.user = .notifyWaiting → s'.user = .notifyWaiting) (hi : s.io = .notifyWaiting → s'.io = .notifyWaiting)
    (hl : late s'.user = true ∨ late s'.io = true → late s.user = true ∨ late s.io = true ∨ s.stage = .waitingForAllReplies)
    (ho : ∀ x ∈ o, isStartWaiting x = false ∧ ∀ r, x ≠ .result r) : Waits s' (t ++ o) := by
  have hw : Woken s → Woken s' := by
    rintro (h | h | h)
    · exact .inl (h2.trans h)
    · exact .inr (.inl (hu h))
    · exact .inr (.inr (hi h))
  have hf : o.filter isStartWaiting = [] := List.filter_eq_nil_iff.2 fun x hx => by rw [(ho x hx).1]; simp
  refine ⟨fun e => hw (h.stage (h1 ▸ e)), fun e => hw ?_, fun e => hw (h.done (h3 ▸ e)), by rw [List.filter_append, hf, List.append_nil, h2]; exact h.count, fun r hr => ?_⟩
  · rcases hl e with e | e | e
    · exact h.pcs (.inl e)
    · exact h.pcs (.inr e)
    · exact h.stage e
  · rw [h3]
    rcases List.mem_append.1 hr with hr | hr
    · exact h.result r hr
    · exact absurd rfl ((ho _ hr).2 r)


theorem waits_user {s : State} {t : List Out} (h : Waits s t) : Waits { (step s s.user).1 with user := (step s s.user).2.1 } (t ++ (step s s.user).2.2) := by
  obtain ⟨a1, a2, a3, a4, a5⟩ := h
  have h : Waits s t := ⟨a1, a2, a3, a4, a5⟩
  cases hp : s.user with
  | idle => exact h.plain rfl rfl rfl (by simp [hp, step]) (by simp [hp, step]) (by simp only [step, hp, late]; grind) (by simp [step])
  | starting l =>
    cases l with
    | nil => exact h.plain rfl rfl rfl (by simp [hp, step]) (by simp [hp, step]) (by simp only [step, hp, late]; grind) (by simp [step])
    | cons n l => exact h.plain rfl rfl rfl (by simp [hp, step, State.set]) (by simp [hp, step, State.set]) (by simp only [step, hp, State.set, late]; grind) (by simp [step, isStartWaiting])
  | tryProxy n ok =>
    cases ok with
    | true => exact h.plain rfl rfl rfl (by simp [hp, step]) (by simp [hp, step]) (by simp only [step, hp, late]; grind) (by simp [step])
    | false => exact h.plain rfl rfl rfl (by simp [hp, step, State.set]) (by simp [hp, step, State.set]) (by simp only [step, hp, State.set, late]; grind) (by simp [step, isStartWaiting])
  | checkStage =>
    refine h.plain rfl rfl rfl (by simp [hp, step]) (by simp [hp, step]) ?_ (by simp [step])
    simp only [step, hp, late]; grind
  | checkFailed =>
    refine h.plain rfl rfl rfl (by simp [hp, step]) (by simp [hp, step]) ?_ (by simp [step])
    simp only [step, hp, late]; grind
  | checkConnecting =>
    refine h.plain rfl rfl rfl (by simp [hp, step]) (by simp [hp, step]) ?_ (by simp [step])
    simp only [step, hp, late]; grind
  | checkWaiting =>
    refine h.plain rfl rfl rfl (by simp [hp, step]) (by simp [hp, step]) ?_ (by simp [step])
    simp only [step, hp, late]; grind
  | checkWaitingStage =>
    refine h.plain rfl rfl rfl (by simp [hp, step]) (by simp [hp, step]) ?_ (by simp [step])
    simp only [step, hp, late]; grind
  | checkReplied =>
    refine h.plain rfl rfl rfl (by simp [hp, step]) (by simp [hp, step]) ?_ (by simp [step])
    simp only [step, hp, late]; grind
  | setFailure =>
    simp only [step, List.append_nil]
    have hw : ∀ p, Woken s → Woken { s with stage := .failure, user := p } := by intro p; simp only [Woken, hp]; grind
    exact ⟨fun e => (by cases e), fun e => hw _ (a2 (by simp only [late, hp] at e ⊢; grind)), fun e => hw _ (a3 e), a4, a5⟩
  | setWaiting =>
    simp only [step, List.append_nil]
    have hw : Woken { s with stage := .waitingForAllReplies, user := .notifyWaiting } := by simp [Woken]
    exact ⟨fun _ => hw, fun _ => hw, fun _ => hw, a4, a5⟩
  | setReplied =>
    simp only [step, List.append_nil]
    have hw : Woken s → Woken { s with stage := .allRepliesReceived, user := .notifySuccess } := by simp only [Woken, hp]; grind
    have hs := hw (a2 (by simp [hp, late]))
    exact ⟨fun _ => hs, fun _ => hs, fun _ => hs, a4, a5⟩
  | notifyFailure =>
    simp only [step, onFailure]
    have hw : Woken { s with started := true, completed := true, user := .idle } := .inl rfl
    refine ⟨fun _ => hw, fun _ => hw, fun _ => hw, ?_, fun _ _ => rfl⟩
    rw [List.filter_append, List.length_append, a4]
    cases s.started <;> cases s.completed <;> rfl
  | notifyWaiting =>
    simp only [step, onWaiting]
    have hw : Woken { s with started := true, user := .checkWaitingStage } := .inl rfl
    refine ⟨fun _ => hw, fun _ => hw, fun _ => hw, ?_, fun r hr => a5 r ?_⟩
    · rw [List.filter_append, List.length_append, a4]
      cases s.started <;> rfl
    · revert hr; cases s.started <;> simp
  | notifySuccess =>
    simp only [step, onSuccess]
    have hw : Woken s → Woken { s with completed := true, user := .idle } := by simp only [Woken, hp]; grind
    have hs := hw (a2 (by simp [hp, late]))
    refine ⟨fun _ => hs, fun _ => hs, fun _ => hs, ?_, fun _ _ => rfl⟩
    rw [List.filter_append, List.length_append, a4]
    cases s.completed <;> rfl

theorem waits_io {s : State} {t : List Out} (h : Waits s t) : Waits { (step s s.io).1 with io := (step s s.io).2.1 } (t ++ (step s s.io).2.2) := by
  obtain ⟨a1, a2, a3, a4, a5⟩ := h
  have h : Waits s t := ⟨a1, a2, a3, a4, a5⟩
  cases hp : s.io with
  | idle => exact h.plain rfl rfl rfl (by simp [hp, step]) (by simp [hp, step]) (by simp only [step, hp, late]; grind) (by simp [step])
  | starting l =>
    cases l with
    | nil => exact h.plain rfl rfl rfl (by simp [hp, step]) (by simp [hp, step]) (by simp only [step, hp, late]; grind) (by simp [step])
    | cons n l => exact h.plain rfl rfl rfl (by simp [hp, step, State.set]) (by simp [hp, step, State.set]) (by simp only [step, hp, State.set, late]; grind) (by simp [step, isStartWaiting])
  | tryProxy n ok =>
    cases ok with
    | true => exact h.plain rfl rfl rfl (by simp [hp, step]) (by simp [hp, step]) (by simp only [step, hp, late]; grind) (by simp [step])
    | false => exact h.plain rfl rfl rfl (by simp [hp, step, State.set]) (by simp [hp, step, State.set]) (by simp only [step, hp, State.set, late]; grind) (by simp [step, isStartWaiting])
  | checkStage =>
    refine h.plain rfl rfl rfl (by simp [hp, step]) (by simp [hp, step]) ?_ (by simp [step])
    simp only [step, hp, late]; grind
  | checkFailed =>
    refine h.plain rfl rfl rfl (by simp [hp, step]) (by simp [hp, step]) ?_ (by simp [step])
    simp only [step, hp, late]; grind
  | checkConnecting =>
    refine h.plain rfl rfl rfl (by simp [hp, step]) (by simp [hp, step]) ?_ (by simp [step])
    simp only [step, hp, late]; grind
  | checkWaiting =>
    refine h.plain rfl rfl rfl (by simp [hp, step]) (by simp [hp, step]) ?_ (by simp [step])
    simp only [step, hp, late]; grind
  | checkWaitingStage =>
    refine h.plain rfl rfl rfl (by simp [hp, step]) (by simp [hp, step]) ?_ (by simp [step])
    simp only [step, hp, late]; grind
  | checkReplied =>
    refine h.plain rfl rfl rfl (by simp [hp, step]) (by simp [hp, step]) ?_ (by simp [step])
    simp only [step, hp, late]; grind
  | setFailure =>
    simp only [step, List.append_nil]
    have hw : ∀ p, Woken s → Woken { s with stage := .failure, io := p } := by intro p; simp only [Woken, hp]; grind
    exact ⟨fun e => (by cases e), fun e => hw _ (a2 (by simp only [late, hp] at e ⊢; grind)), fun e => hw _ (a3 e), a4, a5⟩
  | setWaiting =>
    simp only [step, List.append_nil]
    have hw : Woken { s with stage := .waitingForAllReplies, io := .notifyWaiting } := by simp [Woken]
    exact ⟨fun _ => hw, fun _ => hw, fun _ => hw, a4, a5⟩
  | setReplied =>
    simp only [step, List.append_nil]
    have hw : Woken s → Woken { s with stage := .allRepliesReceived, io := .notifySuccess } := by simp only [Woken, hp]; grind
    have hs := hw (a2 (by simp [hp, late]))
    exact ⟨fun _ => hs, fun _ => hs, fun _ => hs, a4, a5⟩
  | notifyFailure =>
    simp only [step, onFailure]
    have hw : Woken { s with started := true, completed := true, io := .idle } := .inl rfl
    refine ⟨fun _ => hw, fun _ => hw, fun _ => hw, ?_, fun _ _ => rfl⟩
    rw [List.filter_append, List.length_append, a4]
    cases s.started <;> cases s.completed <;> rfl
  | notifyWaiting =>
    simp only [step, onWaiting]
    have hw : Woken { s with started := true, io := .checkWaitingStage } := .inl rfl
    refine ⟨fun _ => hw, fun _ => hw, fun _ => hw, ?_, fun r hr => a5 r ?_⟩
    · rw [List.filter_append, List.length_append, a4]
      cases s.started <;> rfl
    · revert hr; cases s.started <;> simp
  | notifySuccess =>
    simp only [step, onSuccess]
    have hw : Woken s → Woken { s with completed := true, io := .idle } := by simp only [Woken, hp]; grind
    have hs := hw (a2 (by simp [hp, late]))
    refine ⟨fun _ => hs, fun _ => hs, fun _ => hs, ?_, fun _ _ => rfl⟩
    rw [List.filter_append, List.length_append, a4]
    cases s.completed <;> rfl

theorem waits_handle {s : State} {t : List Out} (h : Waits s t) (hi : s.io = .idle) (e : Event) : Waits { (handle s e).1 with io := (handle s e).2.1 } (t ++ (handle s e).2.2) := by
  have key : ∀ (s' : State) (p : Pc) (o : List Out), s'.stage = s.stage → s'.started = s.started → s'.completed = s.completed → s'.user = s.user → late p = false →
      (∀ x ∈ o, isStartWaiting x = false ∧ ∀ r, x ≠ .result r) → Waits { s' with io := p } (t ++ o) := by
    intro s' p o h1 h2 h3 h4 hp ho
    refine h.plain h1 h2 h3 (fun e => by rw [← e]; exact h4) (by rw [hi]; simp) ?_ ho
    simp [hp, h4]
    intro e; exact .inl e
  cases e <;> simp only [handle] <;> (try split) <;> (try split) <;> exact key _ _ _ rfl rfl rfl rfl rfl (by simp [isStartWaiting])

theorem waits_run (known : List String) (h : List Event) : Waits (run known h).1 (run known h).2 := by
  rw [← List.reverse_reverse h]
  induction h.reverse with
  | nil => exact ⟨by simp [run, init], by simp [run, init, late], by simp [run, init], rfl, by simp [run]⟩
  | cons e h ih =>
    rw [List.reverse_cons, run_append]
    generalize (run known h.reverse).1 = s at ih ⊢
    generalize (run known h.reverse).2 = t at ih ⊢
    have other : Waits (if s.io = .idle then ({ (handle s e).1 with io := (handle s e).2.1 }, (handle s e).2.2) else (s, [])).1
        (t ++ (if s.io = .idle then (({ (handle s e).1 with io := (handle s e).2.1 } : State), (handle s e).2.2) else (s, [])).2) := by
      split
      · rename_i hi; exact waits_handle ih hi e
      · rw [List.append_nil]; exact ih
    cases e with
    | user => exact waits_user ih
    | io => exact waits_io ih
    | _ => exact other

end SilKit.Joining
