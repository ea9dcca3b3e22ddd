import Verif.Lemmas.Handlers
/-!
# Registered handlers (C36)

`h` is an arbitrary history of operations on one container of handlers: adding, removing, invoking all, also by a handler that is being
invoked (between its call and its return, `ret`), to any depth. `trace h` lists what happens; the `k`-th invocation of all handlers begins with
`began k` and ends with `ended k`. `FewHandlers h`: not more than 2^64 handlers are added in total.
-/
namespace SilKit.Props
open SilKit.Handlers SilKit.Handlers.Spec

/-- Identifiers are never handed out twice, and later ones are greater. -/
theorem C36_identifiers_are_unique (h : List Event) (hf : FewHandlers h) : (addedIds (trace h)).Pairwise (· < ·) := by
  rw [show addedIds (trace h) = _ from (run_I h hf).ids]
  exact List.pairwise_lt_range

/-- Only a handler that is registered at this time is called: it has been added before, and has not been removed since. -/
theorem C36_only_registered_handlers_are_called (h : List Event) (hf : FewHandlers h) (a b : List Out) (k id p : Nat)
    (e : trace h = a ++ .called k id p :: b) : id ∈ registered a ∧ Out.added id p ∈ a := (run_I h hf).called a k id p b e

/-- In particular, a removed handler is never called again. -/
theorem C36_removed_handler_is_not_called (h : List Event) (hf : FewHandlers h) (a b : List Out) (id : Nat)
    (e : trace h = a ++ .removed id :: b) (hid : id ∈ addedIds a) : ∀ k p, Out.called k id p ∉ b := by
  intro k p hm
  obtain ⟨b1, b2, eb⟩ := List.append_of_mem hm
  have hreg := ((run_I h hf).called (a ++ .removed id :: b1) k id p b2 (by rw [show (run h).2 = _ from e, eb]; simp)).1
  have hids : addedIds (trace h) = List.range _ := (run_I h hf).ids
  have hnod : (addedIds (trace h)).Nodup := by rw [hids]; exact List.nodup_range
  -- registered again
  have key : ∀ (l : List Out) (r : List Nat), id ∉ r → id ∈ l.foldl registeredStep r → id ∈ addedIds l := by
    intro l
    induction l with
    | nil => intro r h1 h2; exact absurd h2 h1
    | cons o l ih =>
        intro r h1 h2
        rw [List.foldl_cons] at h2
        by_cases h3 : id ∈ registeredStep r o
        · cases o with
          | added id' p' =>
              simp only [registeredStep, List.mem_append, List.mem_singleton] at h3
              rcases h3 with h3 | rfl
              · exact absurd h3 h1
              · simp [addedIds]
          | removed id' => simp [registeredStep] at h3; exact absurd h3.1 h1
          | cleared => simp [registeredStep] at h3
          | _ => exact absurd h3 h1
        · have := ih _ h3 h2
          unfold addedIds at this ⊢
          rw [List.filterMap_cons]
          split
          · exact this
          · exact List.mem_cons_of_mem _ this
  rw [registered_append, List.foldl_cons] at hreg
  have hin := key b1 _ (by simp [registeredStep]) hreg
  rw [e, addedIds_append] at hnod
  refine (List.nodup_append.1 hnod).2.2 id hid id ?_ rfl
  rw [eb]
  show id ∈ addedIds ([_] ++ (b1 ++ _))
  rw [addedIds_append, addedIds_append]
  exact List.mem_append_right _ (List.mem_append_left _ hin)

/-- An invocation calls the handlers in the order of their registration, each at most once. -/
theorem C36_called_in_order_at_most_once (h : List Event) (hf : FewHandlers h) (k : Nat) :
    (calls k (trace h)).Pairwise (· < ·) ∧ (calls k (trace h)).Sublist (addedIds (trace h)) := by
  have i := run_I h hf
  have ho : (calls k (trace h)).Pairwise (· < ·) := i.order k
  refine ⟨ho, ?_⟩
  have hmem : ∀ id ∈ calls k (trace h), id < (run h).1.next := by
    intro id hid
    obtain ⟨p, hp⟩ := of_mem_calls hid
    obtain ⟨a, b, e⟩ := List.append_of_mem hp
    have := (i.called a k id p b e).2
    have hid : id ∈ addedIds (trace h) := by
      unfold addedIds
      rw [List.mem_filterMap]
      exact ⟨_, by rw [e]; exact List.mem_append_left _ this, rfl⟩
    rw [show addedIds (trace h) = _ from i.ids] at hid
    simpa using hid
  rw [show addedIds (trace h) = _ from i.ids]
  have e2 : calls k (trace h) = (List.range (run h).1.next).filter (fun x => decide (x ∈ calls k (trace h))) := by
    refine sorted_ext ho ?_ ?_
    · exact List.Pairwise.sublist List.filter_sublist List.pairwise_lt_range
    · intro x
      simp only [List.mem_filter, List.mem_range, decide_eq_true_eq]
      exact ⟨fun hx => ⟨hmem x hx, hx⟩, fun hx => hx.2⟩
  rw [e2]
  exact List.filter_sublist

/-- An invocation that has come to its end has called every handler that is registered then: all those that were registered when it
began and were not removed meanwhile, and also those added meanwhile. All its calls lie between its begin and its end. -/
theorem C36_all_registered_handlers_are_called_partial (h : List Event) (hf : FewHandlers h) (a b : List Out) (k : Nat)
    (e : trace h = a ++ .ended k :: b) : (∀ id ∈ registered a, id ∈ calls k a) ∧ calls k b = [] := (run_I h hf).ended a k b e

theorem C36_calls_follow_the_begin (h : List Event) (hf : FewHandlers h) (a b : List Out) (k : Nat) (e : trace h = a ++ .began k :: b) :
    calls k a = [] := (run_I h hf).began a k b e

/-- There is no undefined behaviour as long as no handler is removed while it is being executed. -/
theorem C36_no_undefined_behaviour_partial (h : List Event) (hs : SafeRemovals (trace h)) : Out.undefined ∉ trace h := ((run_J h).ub hs).2

/-- An invocation of handlers that neither add, remove nor invoke calls exactly the registered ones, in the order of their registration. -/
theorem C36_plain_invocation (h : List Event) (hf : FewHandlers h) (a b c : List Out) (k : Nat)
    (e : trace h = a ++ .began k :: (b ++ .ended k :: c)) (hplain : ∀ o ∈ b, ∃ id p, o = .called k id p) :
    calls k (trace h) = registered a ∧ b.length = (registered a).length := by
  have i := run_I h hf
  have hb0 : ∀ (l : List Out) (r : List Nat), (∀ o ∈ l, ∃ id p, o = Out.called k id p) → l.foldl registeredStep r = r := by
    intro l
    induction l with
    | nil => intro r _; rfl
    | cons o l ih =>
        intro r hl
        obtain ⟨id, p, rfl⟩ := hl o (by simp)
        rw [List.foldl_cons]
        exact ih r (fun o ho => hl o (List.mem_cons_of_mem _ ho))
  have hreg : ∀ l, (∀ o ∈ l, ∃ id p, o = Out.called k id p) → registered (a ++ .began k :: l) = registered a := by
    intro l hl
    rw [registered_append, List.foldl_cons]
    exact hb0 l _ hl
  have e1 : trace h = (a ++ .began k :: b) ++ .ended k :: c := by rw [e]; simp
  obtain ⟨hall, hnone⟩ := i.ended _ k c e1
  rw [hreg b hplain] at hall
  have hcb : calls k (trace h) = calls k b := by
    rw [e1, calls_append, calls_append, i.began a k _ e]
    have : calls k (Out.ended k :: c) = [] := hnone
    rw [this]; simp [calls]
  have hca : calls k (a ++ .began k :: b) = calls k b := by
    rw [calls_append, i.began a k _ e]; rfl
  rw [hca] at hall
  have hlen : ∀ l : List Out, (∀ o ∈ l, ∃ id p, o = Out.called k id p) → l.length = (calls k l).length := by
    intro l
    induction l with
    | nil => intro _; rfl
    | cons o l ih =>
        intro hl
        obtain ⟨id, p, rfl⟩ := hl o (by simp)
        have := ih (fun o ho => hl o (List.mem_cons_of_mem _ ho))
        simp [calls] at this ⊢
        exact this
  have heq : calls k b = registered a := by
    refine sorted_ext ?_ ?_ ?_
    · rw [← hcb]; exact i.order k
    · exact registered_sorted h hf a _ e
    · intro x
      constructor
      · intro hx
        obtain ⟨p, hp⟩ := of_mem_calls hx
        obtain ⟨b1, b2, eb⟩ := List.append_of_mem hp
        have := (i.called (a ++ .began k :: b1) k x p (b2 ++ .ended k :: c) (by rw [show (run h).2 = _ from e, eb]; simp)).1
        rwa [hreg b1 (fun o ho => hplain o (by rw [eb]; simp [ho]))] at this
      · exact hall x
  exact ⟨by rw [hcb, heq], by rw [hlen b hplain, heq]⟩

/-! ## What does not hold -/

/-- A handler that removes itself: undefined behaviour. -/
theorem C36_self_removal_is_undefined_behaviour : Out.undefined ∈ trace [.add 7, .add 8, .invoke, .remove 0, .ret] := by decide +kernel

/-- A handler that adds a handler each time it is called keeps the invocation from ending, however long it goes on. -/
theorem C36_handlers_added_meanwhile_are_called_too (n : Nat) :
    calls 0 (trace ([.add 7, .invoke] ++ (List.replicate n [Event.add 7, .ret]).flatten)) = List.range (n + 1) ∨ idRange ≤ n + 1 := by
  by_cases hn : idRange ≤ n + 1
  · exact Or.inr hn
  · left
    have := growing n (by omega)
    rw [show trace _ = _ from this.2]
    exact growing_calls n

/-! ## Non-vacuity -/

/-- Three handlers; the first one removes the second and adds a fourth, the third invokes all again. -/
def busy : List Event :=
  [.add 10, .add 11, .add 12, .invoke, .remove 1, .add 13, .ret, .invoke, .ret, .ret, .ret, .ret, .ret]

example : FewHandlers busy := by unfold FewHandlers; decide +kernel
example : calls 0 (trace busy) = [0, 2, 3] ∧ calls 1 (trace busy) = [0, 2, 3] ∧ Out.ended 0 ∈ trace busy ∧ Out.ended 1 ∈ trace busy := by decide +kernel
example : Out.removed 1 ∈ trace busy := by decide +kernel

/-- A plain invocation. -/
example : ∃ a b c, trace [.add 10, .add 11, .remove 0, .add 12, .invoke, .ret, .ret] = a ++ .began 0 :: (b ++ .ended 0 :: c) ∧
    (∀ o ∈ b, ∃ id p, o = .called 0 id p) ∧ registered a = [1, 2] :=
  ⟨[.added 0 10, .added 1 11, .removed 0, .added 2 12], [.called 0 1 11, .called 0 2 12], [], by decide +kernel, by simp, by decide +kernel⟩

/-- The removals of `busy` are safe: the second handler is not being executed when it is removed. -/
example : SafeRemovals (trace busy) := by
  have et : trace busy = [.added 0 10, .added 1 11, .added 2 12, .began 0, .called 0 0 10] ++ .removed 1 ::
    [.added 3 13, .called 0 2 12, .began 1, .called 1 0 10, .called 1 2 12, .called 1 3 13, .ended 1, .called 0 3 13, .ended 0] := by decide +kernel
  rw [et]
  constructor
  · intro a id b e ⟨k, p, a1, a2, e1, _, _⟩
    rcases Util.split_append e with ⟨b', e2, -⟩ | ⟨a', e2, e3⟩
    · have hm : Out.removed id ∈ [Out.added 0 10, .added 1 11, .added 2 12, .began 0, .called 0 0 10] := by rw [e2]; simp
      simp at hm
    · cases a' with
      | nil =>
          simp at e3
          rw [List.append_nil] at e2
          have hm : Out.called k id p ∈ [Out.added 0 10, .added 1 11, .added 2 12, .began 0, .called 0 0 10] := by rw [← e2, e1]; simp
          simp at hm
          omega
      | cons o a' =>
          simp only [List.cons_append, List.cons.injEq] at e3
          have hm : Out.removed id ∈ [Out.added 3 13, .called 0 2 12, .began 1, .called 1 0 10, .called 1 2 12, .called 1 3 13, .ended 1, .called 0 3 13, .ended 0] := by
            rw [e3.2]; simp
          simp at hm
  · intro a b e
    have hm : Out.cleared ∈ ([.added 0 10, .added 1 11, .added 2 12, .began 0, .called 0 0 10] ++ .removed 1 ::
      [.added 3 13, .called 0 2 12, .began 1, .called 1 0 10, .called 1 2 12, .called 1 3 13, .ended 1, .called 0 3 13, .ended 0] : List Out) := by
        rw [e]; simp
    simp at hm

end SilKit.Props
