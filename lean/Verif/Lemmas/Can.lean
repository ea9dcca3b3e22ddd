import Verif.Spec.Can
import Verif.Lemmas.Util
/-!
# One CAN controller: its handlers are called as specified
-/
namespace SilKit.Can
open Spec
open Bus.Spec (actOut)
open Util (two_pow_land three_land)

theorem run_snoc (i : Nat) (net : String) (h : List Input) (x : Input) : run i net (h ++ [x]) = step (run i net h) x := by
  simp [run, List.foldl_append]

/-! ## Masks -/

theorem passes_eq (mask : Nat) (n : Notice) : passes mask n = inMask mask n := by
  cases n with
  | frame e =>
      obtain ⟨f, d, c⟩ := e
      cases d
      · simp [passes, inMask, Direction.bits, includesTx, includesRx]
      · have := two_pow_land 0 mask
        simpa [passes, inMask, Direction.bits, includesTx, includesRx] using this
      · have := two_pow_land 1 mask
        simpa [passes, inMask, Direction.bits, includesTx, includesRx] using this
      · have := three_land mask
        simpa [passes, inMask, Direction.bits, includesTx, includesRx] using this
  | ack a =>
      obtain ⟨i, s, c⟩ := a
      cases s
      · exact two_pow_land 0 mask
      · exact two_pow_land 1 mask
      · exact two_pow_land 2 mask
  | state => rfl
  | error => rfl

theorem visible_eq (e : FrameEvent) : visible e = { e with ctx := if includesTx e.direction then e.ctx else 0 } := by
  obtain ⟨f, d, c⟩ := e
  cases d <;> simp [visible, Direction.bits, includesTx]

/-! ## Handlers -/

/-- The states after the messages taken. -/
def after : CtlState × ErrorState → List Out → CtlState × ErrorState
  | s, [] => s
  | _, .takes _ (.status s' e') :: t => after (s', e') t
  | s, _ :: t => after s t

theorem after_append (s : CtlState × ErrorState) (a b : List Out) : after s (a ++ b) = after (after s a) b := by
  induction a generalizing s with
  | nil => rfl
  | cons o a ih =>
      cases o with
      | takes src m => cases m <;> exact ih _
      | _ => exact ih _

theorem noticesFrom_append (s : CtlState) (e : ErrorState) (a b : List Out) :
    noticesFrom s e (a ++ b) = noticesFrom s e a ++ noticesFrom (after (s, e) a).1 (after (s, e) a).2 b := by
  induction a generalizing s e with
  | nil => rfl
  | cons o a ih =>
      cases o with
      | takes src m =>
          cases m with
          | frame f => simp only [List.cons_append, noticesFrom, after]; rw [ih]
          | ack a => simp only [List.cons_append, noticesFrom, after]; rw [ih]
          | status s' e' => simp only [List.cons_append, noticesFrom, after]; rw [ih]; simp
      | _ => exact ih s e

def isCalled : Out → Bool
  | .called .. => true
  | _ => false

theorem after_called (s : CtlState × ErrorState) (l : List Out) (h : ∀ o ∈ l, isCalled o = true) : after s l = s := by
  induction l with
  | nil => rfl
  | cons o l ih =>
      have := h o (by simp)
      cases o with
      | called => exact ih (fun o ho => h o (by simp [ho]))
      | _ => cases this

theorem noticesFrom_called (s : CtlState) (e : ErrorState) (l : List Out) (h : ∀ o ∈ l, isCalled o = true) : noticesFrom s e l = [] := by
  induction l with
  | nil => rfl
  | cons o l ih =>
      have := h o (by simp)
      cases o with
      | called => exact ih (fun o ho => h o (by simp [ho]))
      | _ => cases this

theorem notify_called (c : Ctl) (n : Notice) : ∀ o ∈ c.notify n, isCalled o = true := by
  intro o ho
  unfold Ctl.notify at ho
  rw [List.mem_map] at ho
  obtain ⟨x, -, rfl⟩ := ho
  rfl

theorem handlerCalls_append (k : Kind) (id : Nat) (a b : List Out) : handlerCalls k id (a ++ b) = handlerCalls k id a ++ handlerCalls k id b := by
  simp [handlerCalls]

/-- The calls of one handler while all are invoked. -/
theorem handlerCalls_notify {c : Ctl} {k : Kind} (hn : ((c.handlers k).entries.map (·.1)).Nodup) (id : Nat) (n : Notice) :
    (∀ mask, (id, mask) ∈ (c.handlers k).entries → handlerCalls k id (c.notify n) = [n].filter (fun n => decide (n.kind = k) && inMask mask n)) ∧
    (id ∉ (c.handlers k).entries.map (·.1) → handlerCalls k id (c.notify n) = []) := by
  unfold Ctl.notify handlerCalls
  rw [List.filterMap_map]
  by_cases hk : n.kind = k
  · rw [hk]
    generalize (c.handlers k).entries = l at hn
    induction l with
    | nil => simp
    | cons x l ih =>
        rw [List.map_cons, List.nodup_cons] at hn
        obtain ⟨ih1, ih2⟩ := ih hn.2
        refine ⟨?_, ?_⟩
        · intro mask hm
          rw [List.mem_cons] at hm
          rcases hm with hm | hm
          · subst hm
            rw [List.filter_cons]
            have h2 := ih2 hn.1
            split
            · rename_i hp
              rw [List.filterMap_cons, h2]
              simp only [passes_eq] at hp
              simp [hk, hp]
            · rename_i hp
              rw [h2]
              simp only [passes_eq] at hp
              simp [hk, hp]
          · have hne : x.1 ≠ id := by
              intro e
              exact hn.1 (by rw [e, List.mem_map]; exact ⟨_, hm, rfl⟩)
            rw [List.filter_cons]
            split
            · rw [List.filterMap_cons]
              simp only [Function.comp, hne, false_and, if_false]
              exact ih1 mask hm
            · exact ih1 mask hm
        · intro hm
          rw [List.map_cons, List.mem_cons, not_or] at hm
          rw [List.filter_cons]
          have hne : x.1 ≠ id := fun e => hm.1 e.symm
          split
          · rw [List.filterMap_cons]
            simp only [Function.comp, hne, false_and, if_false]
            exact ih2 hm.2
          · exact ih2 hm.2
  · have : ∀ l : List (Nat × Nat), l.filterMap ((fun o : Out => match o with
        | .called id' n => if id' = id ∧ n.kind = k then some n else none
        | _ => none) ∘ fun x : Nat × Nat => Out.called x.1 n) = [] := by
      intro l
      rw [List.filterMap_eq_nil_iff]
      intro x _
      simp [hk]
    exact ⟨fun mask _ => (this _).trans (by simp [hk]), fun _ => this _⟩

/-- The handlers a controller has are those that were added and not removed. -/
structure K (c : Ctl) (t : List Out) : Prop where
  st : after (.uninit, .notAvailable) t = (c.state, c.error)
  keys : ∀ k, ((c.handlers k).entries.map (·.1)).Nodup
  bound : ∀ k, ∀ id ∈ (c.handlers k).entries.map (·.1), id < (c.handlers k).next
  adds : ∀ k id mask, Out.added k id mask ∈ t → id < (c.handlers k).next
  fresh : ∀ k id, (c.handlers k).next ≤ id → handlerCalls k id t = []
  live : ∀ k id mask a b, t = a ++ .added k id mask :: b → Out.removed k id ∉ b →
    (id, mask) ∈ (c.handlers k).entries ∧ handlerCalls k id a = [] ∧
    handlerCalls k id b = (noticesFrom (after (.uninit, .notAvailable) a).1 (after (.uninit, .notAvailable) a).2 b).filter
      (fun n => decide (n.kind = k) && inMask mask n)
  dead : ∀ k id a b, t = a ++ .removed k id :: b → (∃ mask, Out.added k id mask ∈ a) →
    id ∉ (c.handlers k).entries.map (·.1) ∧ handlerCalls k id b = []

/-- A step in which no handler is added or removed. -/
theorem K.quiet {c c' : Ctl} {t u : List Out} (h : K c t) (hh : c'.handlers = c.handlers) (ha : ∀ k id mask, Out.added k id mask ∉ u)
    (hr : ∀ k id, Out.removed k id ∉ u) (hs : after (c.state, c.error) u = (c'.state, c'.error))
    (hin : ∀ k id mask, (id, mask) ∈ (c.handlers k).entries →
      handlerCalls k id u = (noticesFrom c.state c.error u).filter (fun n => decide (n.kind = k) && inMask mask n))
    (hout : ∀ k id, id ∉ (c.handlers k).entries.map (·.1) → handlerCalls k id u = []) : K c' (t ++ u) := by
  refine ⟨?_, ?_, ?_, ?_, ?_, ?_, ?_⟩
  · rw [after_append, h.st, hs]
  · rw [hh]; exact h.keys
  · rw [hh]; exact h.bound
  · intro k id mask hm
    rw [List.mem_append] at hm
    rcases hm with hm | hm
    · rw [hh]; exact h.adds k id mask hm
    · exact absurd hm (ha k id mask)
  · intro k id hid
    rw [hh] at hid
    rw [handlerCalls_append, h.fresh k id hid, hout k id]
    · rfl
    · intro hm; have := h.bound k id hm; omega
  · intro k id mask a b e hnr
    rcases Util.split_append e with ⟨b', e1, e2⟩ | ⟨a', e1, e2⟩
    · have hnr' : Out.removed k id ∉ b' := fun hm => hnr (by rw [e2]; exact List.mem_append_left _ hm)
      obtain ⟨h1, h2, h3⟩ := h.live k id mask a b' e1 hnr'
      refine ⟨by rw [hh]; exact h1, h2, ?_⟩
      have hst := h.st
      rw [e1, after_append] at hst
      have hst' : after (after (.uninit, .notAvailable) a) b' = (c.state, c.error) := hst
      rw [e2, handlerCalls_append, h3, hin k id mask h1, noticesFrom_append, List.filter_append]
      rw [show after ((after (.uninit, .notAvailable) a).1, (after (.uninit, .notAvailable) a).2) b' = (c.state, c.error) from hst']
    · exact absurd (show Out.added k id mask ∈ u by rw [e2]; simp) (ha k id mask)
  · intro k id a b e hadd
    rcases Util.split_append e with ⟨b', e1, e2⟩ | ⟨a', e1, e2⟩
    · obtain ⟨h1, h2⟩ := h.dead k id a b' e1 hadd
      refine ⟨by rw [hh]; exact h1, ?_⟩
      rw [e2, handlerCalls_append, h2, hout k id h1]; rfl
    · exact absurd (show Out.removed k id ∈ u by rw [e2]; simp) (hr k id)

theorem called_not_added {l : List Out} (h : ∀ o ∈ l, isCalled o = true) : (∀ k id mask, Out.added k id mask ∉ l) ∧ ∀ k id, Out.removed k id ∉ l :=
  ⟨fun _ _ _ hm => absurd (h _ hm) (by simp [isCalled]), fun _ _ hm => absurd (h _ hm) (by simp [isCalled])⟩

theorem handlerCalls_takes (k : Kind) (id : Nat) (src : Option (Nat × Nat)) (m : Msg) (l : List Out) :
    handlerCalls k id (.takes src m :: l) = handlerCalls k id l := by simp [handlerCalls]

/-- A frame or an acknowledge is taken. -/
theorem K.notice {c : Ctl} {t : List Out} (h : K c t) (src : Option (Nat × Nat)) (m : Msg) (n : Notice)
    (hn : ∀ s e l, noticesFrom s e (.takes src m :: l) = n :: noticesFrom s e l) (hs : ∀ s l, after s (.takes src m :: l) = after s l) :
    K c (t ++ .takes src m :: c.notify n) := by
  have hc := notify_called c n
  refine h.quiet rfl ?_ ?_ ?_ ?_ ?_
  · intro k id mask hm
    rw [List.mem_cons] at hm
    rcases hm with hm | hm
    · cases hm
    · exact (called_not_added hc).1 k id mask hm
  · intro k id hm
    rw [List.mem_cons] at hm
    rcases hm with hm | hm
    · cases hm
    · exact (called_not_added hc).2 k id hm
  · rw [hs, after_called _ _ hc]
  · intro k id mask hm
    rw [handlerCalls_takes, (handlerCalls_notify (h.keys k) id n).1 mask hm, hn, noticesFrom_called _ _ _ hc]
  · intro k id hm
    rw [handlerCalls_takes, (handlerCalls_notify (h.keys k) id n).2 hm]

theorem setState_spec (c : Ctl) (s : CtlState) :
    (c.setState s).1.state = s ∧ (c.setState s).1.error = c.error ∧ (c.setState s).1.handlers = c.handlers ∧ (∀ o ∈ (c.setState s).2, isCalled o = true) ∧
    (c.setState s).1.id = c.id ∧ (c.setState s).1.net = c.net ∧ (c.setState s).1.sim = c.sim := by
  unfold Ctl.setState
  split
  · exact ⟨rfl, rfl, rfl, notify_called _ _, rfl, rfl, rfl⟩
  · rename_i h
    exact ⟨by simpa using h, rfl, rfl, by simp, rfl, rfl, rfl⟩

theorem setError_spec (c : Ctl) (s : ErrorState) :
    (c.setError s).1.error = s ∧ (c.setError s).1.state = c.state ∧ (c.setError s).1.handlers = c.handlers ∧ (∀ o ∈ (c.setError s).2, isCalled o = true) ∧
    (c.setError s).1.id = c.id ∧ (c.setError s).1.net = c.net ∧ (c.setError s).1.sim = c.sim := by
  unfold Ctl.setError
  split
  · exact ⟨rfl, rfl, rfl, notify_called _ _, rfl, rfl, rfl⟩
  · rename_i h
    exact ⟨by simpa using h, rfl, rfl, by simp, rfl, rfl, rfl⟩

theorem handlerCalls_setState {c : Ctl} {k : Kind} (hn : ((c.handlers k).entries.map (·.1)).Nodup) (id : Nat) (s : CtlState) :
    (∀ mask, (id, mask) ∈ (c.handlers k).entries →
      handlerCalls k id (c.setState s).2 = (if s ≠ c.state then [Notice.state s] else []).filter (fun n => decide (n.kind = k) && inMask mask n)) ∧
    (id ∉ (c.handlers k).entries.map (·.1) → handlerCalls k id (c.setState s).2 = []) := by
  unfold Ctl.setState
  by_cases hs : c.state ≠ s
  · rw [if_pos hs, if_pos (Ne.symm hs)]
    exact handlerCalls_notify (c := { c with state := s }) hn id (.state s)
  · rw [if_neg hs, if_neg (fun h => hs (Ne.symm h))]
    exact ⟨fun _ _ => rfl, fun _ => rfl⟩

theorem handlerCalls_setError {c : Ctl} {k : Kind} (hn : ((c.handlers k).entries.map (·.1)).Nodup) (id : Nat) (s : ErrorState) :
    (∀ mask, (id, mask) ∈ (c.handlers k).entries →
      handlerCalls k id (c.setError s).2 = (if s ≠ c.error then [Notice.error s] else []).filter (fun n => decide (n.kind = k) && inMask mask n)) ∧
    (id ∉ (c.handlers k).entries.map (·.1) → handlerCalls k id (c.setError s).2 = []) := by
  unfold Ctl.setError
  by_cases hs : c.error ≠ s
  · rw [if_pos hs, if_pos (Ne.symm hs)]
    exact handlerCalls_notify (c := { c with error := s }) hn id (.error s)
  · rw [if_neg hs, if_neg (fun h => hs (Ne.symm h))]
    exact ⟨fun _ _ => rfl, fun _ => rfl⟩

theorem K.status {c : Ctl} {t : List Out} (h : K c t) (src : Option (Nat × Nat)) (s : CtlState) (e : ErrorState) :
    K (c.take src (.status s e)).1 (t ++ (c.take src (.status s e)).2) := by
  obtain ⟨a1, a2, a3, a4, -⟩ := setState_spec c s
  obtain ⟨b1, b2, b3, b4, -⟩ := setError_spec (c.setState s).1 e
  have hc : ∀ o ∈ (c.setState s).2 ++ ((c.setState s).1.setError e).2, isCalled o = true := by
    intro o ho; rw [List.mem_append] at ho; exact ho.elim (a4 o) (b4 o)
  simp only [Ctl.take]
  have hk2 : ∀ k, (((c.setState s).1.handlers k).entries.map (·.1)).Nodup := by rw [a3]; exact h.keys
  refine h.quiet (by rw [b3, a3]) ?_ ?_ ?_ ?_ ?_
  · intro k id mask hm
    rw [List.mem_cons] at hm
    rcases hm with hm | hm
    · cases hm
    · exact (called_not_added hc).1 k id mask hm
  · intro k id hm
    rw [List.mem_cons] at hm
    rcases hm with hm | hm
    · cases hm
    · exact (called_not_added hc).2 k id hm
  · simp only [after]
    rw [after_called _ _ hc, b1, b2, a1]
  · intro k id mask hm
    have h1 := (handlerCalls_setState (h.keys k) id s).1 mask hm
    have h2 := (handlerCalls_setError (hk2 k) id e).1 mask (by rw [a3]; exact hm)
    rw [a2] at h2
    rw [handlerCalls_takes, handlerCalls_append, h1, h2]
    simp only [noticesFrom]
    rw [noticesFrom_called _ _ _ hc, List.append_nil, List.filter_append]
  · intro k id hm
    have h1 := (handlerCalls_setState (h.keys k) id s).2 hm
    have h2 := (handlerCalls_setError (hk2 k) id e).2 (by rw [a3]; exact hm)
    rw [handlerCalls_takes, handlerCalls_append, h1, h2]; rfl

theorem K.take {c : Ctl} {t : List Out} (h : K c t) (src : Option (Nat × Nat)) (m : Msg) : K (c.take src m).1 (t ++ (c.take src m).2) := by
  cases m with
  | frame e => exact h.notice src _ _ (by intro s e' l; rw [visible_eq]; rfl) (fun _ _ => rfl)
  | ack a => exact h.notice src _ _ (fun _ _ _ => rfl) (fun _ _ => rfl)
  | status s e => exact h.status src s e

/-- Something else happens. -/
theorem K.other {c c' : Ctl} {t : List Out} (h : K c t) (u : List Out) (hu : ∀ o ∈ u, (∃ q m, o = .toSim q m) ∨ o = .warned)
    (hh : c'.handlers = c.handlers) (h1 : c'.state = c.state) (h2 : c'.error = c.error) : K c' (t ++ u) := by
  have hcalls : ∀ k id, handlerCalls k id u = [] := by
    intro k id
    unfold handlerCalls
    rw [List.filterMap_eq_nil_iff]
    intro o ho
    rcases hu o ho with ⟨q, m, rfl⟩ | rfl <;> rfl
  have hst : ∀ s, after s u = s := by
    intro s
    clear hcalls
    induction u with
    | nil => rfl
    | cons o u ih =>
        rcases hu o (by simp) with ⟨q, m, rfl⟩ | rfl
        · exact ih (fun o ho => hu o (by simp [ho]))
        · exact ih (fun o ho => hu o (by simp [ho]))
  have hno : ∀ s e, noticesFrom s e u = [] := by
    intro s e
    clear hcalls hst
    induction u with
    | nil => rfl
    | cons o u ih =>
        rcases hu o (by simp) with ⟨q, m, rfl⟩ | rfl
        · exact ih (fun o ho => hu o (by simp [ho]))
        · exact ih (fun o ho => hu o (by simp [ho]))
  refine h.quiet hh ?_ ?_ ?_ ?_ ?_
  · intro k id mask hm
    rcases hu _ hm with ⟨q, m, e⟩ | e <;> cases e
  · intro k id hm
    rcases hu _ hm with ⟨q, m, e⟩ | e <;> cases e
  · rw [hst, h1, h2]
  · intro k id mask _; rw [hcalls, hno]; rfl
  · intro k id _; exact hcalls k id

theorem handlerCalls_single_added (k k' : Kind) (id id' mask : Nat) : handlerCalls k id [Out.added k' id' mask] = [] := rfl
theorem handlerCalls_single_removed (k k' : Kind) (id id' : Nat) : handlerCalls k id [Out.removed k' id'] = [] := rfl

theorem snoc_split {α : Type} {t a b : List α} {x y : α} (h : t ++ [x] = a ++ y :: b) :
    (∃ b', t = a ++ y :: b' ∧ b = b' ++ [x]) ∨ (a = t ∧ y = x ∧ b = []) := by
  rcases Util.split_append h with h | ⟨a', e1, e2⟩
  · exact Or.inl h
  · right
    cases a' with
    | nil =>
        simp at e2
        exact ⟨by simpa using e1, e2.1.symm, e2.2⟩
    | cons z a' => simp at e2

theorem K.add {c : Ctl} {t : List Out} (h : K c t) (k : Kind) (mask : Nat) : K (c.addHandler k mask).1 (t ++ (c.addHandler k mask).2) := by
  have e2 : (c.addHandler k mask).2 = [.added k (c.handlers k).next mask] := rfl
  have hk : ∀ k', k' ≠ k → (c.addHandler k mask).1.handlers k' = c.handlers k' := by intro k' hne; simp [Ctl.addHandler, Ctl.setHandlers, hne]
  have he : ((c.addHandler k mask).1.handlers k).entries = (c.handlers k).entries ++ [((c.handlers k).next, mask)] := by simp [Ctl.addHandler, Ctl.setHandlers]
  have hnx : ((c.addHandler k mask).1.handlers k).next = (c.handlers k).next + 1 := by simp [Ctl.addHandler, Ctl.setHandlers]
  have hle : ∀ k', (c.handlers k').next ≤ ((c.addHandler k mask).1.handlers k').next := by
    intro k'
    by_cases hkk : k' = k
    · subst hkk; omega
    · rw [hk k' hkk]; exact Nat.le_refl _
  rw [e2]
  refine ⟨?_, ?_, ?_, ?_, ?_, ?_, ?_⟩
  · rw [after_append, h.st]; rfl
  · intro k'
    by_cases hkk : k' = k
    · subst hkk
      rw [he, List.map_append, List.nodup_append]
      refine ⟨h.keys k', by simp, ?_⟩
      intro x hx y hy
      simp at hy
      have := h.bound k' x hx
      omega
    · rw [hk k' hkk]; exact h.keys k'
  · intro k' id hm
    by_cases hkk : k' = k
    · subst hkk
      rw [he, List.map_append, List.mem_append] at hm
      rw [hnx]
      rcases hm with hm | hm
      · have := h.bound k' id hm; omega
      · simp at hm; omega
    · rw [hk k' hkk] at hm ⊢; exact h.bound k' id hm
  · intro k' id mask' hm
    rw [List.mem_append] at hm
    rcases hm with hm | hm
    · have := h.adds k' id mask' hm
      have := hle k'
      omega
    · simp at hm
      obtain ⟨rfl, rfl, rfl⟩ := hm
      omega
  · intro k' id hid
    rw [handlerCalls_append, handlerCalls_single_added, List.append_nil]
    have := hle k'
    exact h.fresh k' id (by omega)
  · intro k' id mask' a b e hnr
    rcases snoc_split e with ⟨b', e3, e4⟩ | ⟨e3, e4, e5⟩
    · have hnr' : Out.removed k' id ∉ b' := fun hm => hnr (by rw [e4]; exact List.mem_append_left _ hm)
      obtain ⟨h1, h2, h3⟩ := h.live k' id mask' a b' e3 hnr'
      refine ⟨?_, h2, ?_⟩
      · by_cases hkk : k' = k
        · subst hkk; rw [he]; exact List.mem_append_left _ h1
        · rw [hk k' hkk]; exact h1
      · rw [e4, handlerCalls_append, handlerCalls_single_added, List.append_nil, h3, noticesFrom_append]
        simp [noticesFrom]
    · injection e4 with e4 e6 e7
      subst e4 e6 e7 e3 e5
      refine ⟨by rw [he]; simp, h.fresh _ _ (Nat.le_refl _), rfl⟩
  · intro k' id a b e hadd
    rcases snoc_split e with ⟨b', e3, e4⟩ | ⟨e3, e4, e5⟩
    · obtain ⟨h1, h2⟩ := h.dead k' id a b' e3 hadd
      refine ⟨?_, by rw [e4, handlerCalls_append, h2]; rfl⟩
      by_cases hkk : k' = k
      · subst hkk
        rw [he, List.map_append, List.mem_append]
        rintro (hm | hm)
        · exact h1 hm
        · obtain ⟨mask', hadd⟩ := hadd
          have := h.adds k' id mask' (by rw [e3]; exact List.mem_append_left _ hadd)
          simp at hm
          omega
      · rw [hk k' hkk]; exact h1
    · cases e4

theorem K.remove {c : Ctl} {t : List Out} (h : K c t) (k : Kind) (id : Nat) : K (c.removeHandler k id).1 (t ++ (c.removeHandler k id).2) := by
  have e2 : (c.removeHandler k id).2 = [.removed k id] := rfl
  have hk : ∀ k', k' ≠ k → (c.removeHandler k id).1.handlers k' = c.handlers k' := by intro k' hne; simp [Ctl.removeHandler, Ctl.setHandlers, hne]
  have he : ((c.removeHandler k id).1.handlers k).entries = (c.handlers k).entries.filter (·.1 != id) := by simp [Ctl.removeHandler, Ctl.setHandlers]
  have hnx : ∀ k', ((c.removeHandler k id).1.handlers k').next = (c.handlers k').next := by
    intro k'
    by_cases hkk : k' = k
    · subst hkk; simp [Ctl.removeHandler, Ctl.setHandlers]
    · rw [hk k' hkk]
  have hsub : ∀ k', ((c.removeHandler k id).1.handlers k').entries.Sublist (c.handlers k').entries := by
    intro k'
    by_cases hkk : k' = k
    · subst hkk; rw [he]; exact List.filter_sublist
    · rw [hk k' hkk]; exact List.Sublist.refl _
  rw [e2]
  refine ⟨?_, ?_, ?_, ?_, ?_, ?_, ?_⟩
  · rw [after_append, h.st]; rfl
  · intro k'; exact ((hsub k').map _).nodup (h.keys k')
  · intro k' i hm
    rw [hnx]
    exact h.bound k' i (((hsub k').map _).subset hm)
  · intro k' i mask' hm
    rw [hnx]
    rw [List.mem_append] at hm
    rcases hm with hm | hm
    · exact h.adds k' i mask' hm
    · simp at hm
  · intro k' i hid
    rw [hnx] at hid
    rw [handlerCalls_append, handlerCalls_single_removed, List.append_nil]
    exact h.fresh k' i hid
  · intro k' i mask' a b e hnr
    rcases snoc_split e with ⟨b', e3, e4⟩ | ⟨e3, e4, e5⟩
    · have hnr' : Out.removed k' i ∉ b' := fun hm => hnr (by rw [e4]; exact List.mem_append_left _ hm)
      obtain ⟨h1, h2, h3⟩ := h.live k' i mask' a b' e3 hnr'
      refine ⟨?_, h2, ?_⟩
      · by_cases hkk : k' = k
        · subst hkk
          rw [he, List.mem_filter]
          refine ⟨h1, ?_⟩
          have : i ≠ id := by
            rintro rfl
            exact hnr (by rw [e4]; simp)
          simpa using this
        · rw [hk k' hkk]; exact h1
      · rw [e4, handlerCalls_append, handlerCalls_single_removed, List.append_nil, h3, noticesFrom_append]
        simp [noticesFrom]
    · cases e4
  · intro k' i a b e hadd
    rcases snoc_split e with ⟨b', e3, e4⟩ | ⟨e3, e4, e5⟩
    · obtain ⟨h1, h2⟩ := h.dead k' i a b' e3 hadd
      exact ⟨fun hm => h1 (((hsub k').map _).subset hm), by rw [e4, handlerCalls_append, h2]; rfl⟩
    · injection e4 with e4 e6
      subst e4 e6 e5
      refine ⟨?_, rfl⟩
      rw [he, List.mem_map]
      rintro ⟨x, hx, e⟩
      rw [List.mem_filter] at hx
      simp [e] at hx

theorem filterMap_out (l : List Out) :
    (l.map (Bus.Act.out : Out → Bus.Act FrameEvent Out)).filterMap actOut = l := by
  induction l with
  | nil => rfl
  | cons x l ih => rw [List.map_cons, List.filterMap_cons]; simp only [actOut]; rw [ih]

theorem K.setMode {c : Ctl} {t : List Out} (h : K c t) (s : CtlState) : K (c.setMode s).1 (t ++ (c.setMode s).2) := by
  unfold Ctl.setMode
  split
  · exact h.take none _
  · exact h.other _ (by simp) rfl rfl rfl

theorem K.receive {c : Ctl} {t : List Out} (h : K c t) (src : Nat × Nat) (m : Msg) : K (c.receive src m).1 (t ++ (c.receive src m).2) := by
  unfold Ctl.receive
  split
  · exact h.take _ _
  · simpa using h

theorem K.onSim {c : Ctl} {t : List Out} (h : K c t) (x : SimInput) : K (c.onSim x).1 (t ++ (c.onSim x).2) := by
  cases x with
  | linkCreated q net =>
      simp only [Ctl.onSim]
      split
      · exact h.other _ (by simp) rfl rfl rfl
      · simpa using h
  | linkRemoved q net =>
      simp only [Ctl.onSim]
      split
      · exact h.other _ (by simp) rfl rfl rfl
      · simpa using h
  | msg src m => exact h.receive src m

theorem K.step {c : Ctl} {t : List Out} (h : K c t) (x : Input) : K (step (c, t) x).1 (step (c, t) x).2 := by
  cases x with
  | inr x => exact h.receive x.1 _
  | inl a =>
      have hacts : ∀ r : Ctl × List Out, K r.1 (t ++ r.2) → K (asActs r).1 (t ++ (asActs r).2.filterMap actOut) := by
        intro r hr; simp only [asActs]; rw [filterMap_out]; exact hr
      cases a with
      | start => exact hacts _ (h.setMode _)
      | stop => exact hacts _ (h.setMode _)
      | sleep => exact hacts _ (h.setMode _)
      | reset => exact hacts _ (h.setMode _)
      | addHandler k mask => exact hacts _ (h.add k mask)
      | removeHandler k id => exact hacts _ (h.remove k id)
      | sim x => exact hacts _ (h.onSim x)
      | sendFrame f ctx =>
          simp only [Spec.step, Ctl.api, Ctl.sendFrame]
          cases c.sim with
          | some q => exact h.other _ (by simp [actOut]) rfl rfl rfl
          | none =>
              simp only
              split
              · rw [List.filterMap_cons]
                simp only [actOut]
                rw [filterMap_out, ← List.append_assoc]
                exact K.take (K.take h none (.frame ⟨f, .tx, ctx⟩)) none (.ack ⟨f.canId, .transmitted, ctx⟩)
              · exact h.other _ (by simp [actOut]) rfl rfl rfl

theorem run_K (i : Nat) (net : String) (h : List Input) : K (run i net h).1 (run i net h).2 := by
  rw [← List.reverse_reverse h]
  induction h.reverse with
  | nil =>
      refine ⟨rfl, fun _ => by simp [run], fun _ => by simp [run], ?_, fun _ _ _ => rfl, ?_, ?_⟩
      · intro k id mask hm; simp [run] at hm
      · intro k id mask a b e; simp [run] at e
      · intro k id a b e; simp [run] at e
  | cons x h ih => rw [List.reverse_cons, run_snoc]; exact ih.step x

/-! ## Handlers are called with notices only -/

theorem mem_notify {c : Ctl} {n n' : Notice} {id : Nat} (h : Out.called id n' ∈ c.notify n) : n' = n := by
  unfold Ctl.notify at h
  rw [List.mem_map] at h
  obtain ⟨x, -, e⟩ := h
  injection e with _ e
  exact e.symm

theorem take_notices (c : Ctl) (src : Option (Nat × Nat)) (m : Msg) {id : Nat} {n : Notice} (h : Out.called id n ∈ (c.take src m).2) :
    n ∈ noticesFrom c.state c.error (c.take src m).2 := by
  cases m with
  | frame e =>
      simp only [Ctl.take, List.mem_cons] at h
      rcases h with h | h
      · cases h
      · simp only [Ctl.take, noticesFrom]; rw [mem_notify h, visible_eq]; exact List.mem_cons_self
  | ack a =>
      simp only [Ctl.take, List.mem_cons] at h
      rcases h with h | h
      · cases h
      · simp only [Ctl.take, noticesFrom]; rw [mem_notify h]; exact List.mem_cons_self
  | status s e =>
      simp only [Ctl.take, List.mem_cons, List.mem_append] at h
      simp only [Ctl.take, noticesFrom, List.mem_append]
      rcases h with h | h | h
      · cases h
      · left; left
        unfold Ctl.setState at h
        split at h
        · rename_i hs; rw [if_pos (Ne.symm hs), mem_notify h]; exact List.mem_singleton_self _
        · cases h
      · left; right
        obtain ⟨-, a2, -⟩ := setState_spec c s
        unfold Ctl.setError at h
        split at h
        · rename_i hs; rw [a2] at hs; rw [if_pos (Ne.symm hs), mem_notify h]; exact List.mem_singleton_self _
        · cases h

/-- The outputs of a step are notified about properly. -/
def Proper (c : Ctl) (u : List Out) : Prop := ∀ id n, Out.called id n ∈ u → n ∈ noticesFrom c.state c.error u

theorem receive_proper (c : Ctl) (src : Nat × Nat) (m : Msg) : Proper c (c.receive src m).2 := by
  intro id n h
  unfold Ctl.receive at h ⊢
  split
  · rename_i ha; rw [if_pos ha] at h; exact take_notices c _ m h
  · rename_i ha; rw [if_neg ha] at h; cases h

theorem setMode_proper (c : Ctl) (s : CtlState) : Proper c (c.setMode s).2 := by
  intro id n h
  unfold Ctl.setMode at h ⊢
  split
  · rename_i ha; simp only [ha] at h; exact take_notices c _ _ h
  · rename_i ha; simp only [ha, List.mem_singleton] at h; cases h

theorem api_proper (c : Ctl) (a : Call) : Proper c ((c.api a).2.filterMap actOut) := by
  have ha : ∀ r : Ctl × List Out, (asActs r).2.filterMap actOut = r.2 := fun r => filterMap_out r.2
  cases a with
  | start => simp only [Ctl.api]; rw [ha]; exact setMode_proper c _
  | stop => simp only [Ctl.api]; rw [ha]; exact setMode_proper c _
  | sleep => simp only [Ctl.api]; rw [ha]; exact setMode_proper c _
  | reset => simp only [Ctl.api]; rw [ha]; exact setMode_proper c _
  | addHandler k mask => simp only [Ctl.api]; rw [ha]; intro id n h; simp [Ctl.addHandler] at h
  | removeHandler k mask => simp only [Ctl.api]; rw [ha]; intro id n h; simp [Ctl.removeHandler] at h
  | sim x =>
      simp only [Ctl.api]; rw [ha]
      cases x with
      | linkCreated q net => simp only [Ctl.onSim]; split <;> (intro id n h; cases h)
      | linkRemoved q net => simp only [Ctl.onSim]; split <;> (intro id n h; cases h)
      | msg src m => exact receive_proper c src m
  | sendFrame f ctx =>
      simp only [Ctl.api, Ctl.sendFrame]
      cases c.sim with
      | some q => intro id n h; simp [actOut] at h
      | none =>
          simp only
          split
          · rw [List.filterMap_cons]
            simp only [actOut]
            rw [filterMap_out]
            intro id n h
            rw [noticesFrom_append]
            rw [List.mem_append] at h ⊢
            rcases h with h | h
            · exact Or.inl (take_notices c _ _ h)
            · right
              have e : after (c.state, c.error) (c.take none (.frame ⟨f, .tx, ctx⟩)).2 = (c.state, c.error) := by
                simp only [Ctl.take, after]
                exact after_called _ _ (notify_called _ _)
              rw [e]
              exact take_notices c _ _ h
          · intro id n h; simp [actOut] at h

theorem run_proper (i : Nat) (net : String) (h : List Input) {id : Nat} {n : Notice} (hm : Out.called id n ∈ ctlTrace i net h) :
    n ∈ notices (ctlTrace i net h) := by
  revert hm
  unfold ctlTrace
  rw [← List.reverse_reverse h]
  induction h.reverse with
  | nil => intro hm; cases hm
  | cons x h ih =>
      rw [List.reverse_cons, run_snoc]
      have hk := (run_K i net h.reverse).st
      have : ∀ u, Proper (run i net h.reverse).1 u → Out.called id n ∈ (run i net h.reverse).2 ++ u → n ∈ notices ((run i net h.reverse).2 ++ u) := by
        intro u hu hm
        unfold notices
        rw [noticesFrom_append, hk]
        rw [List.mem_append] at hm ⊢
        rcases hm with hm | hm
        · exact Or.inl (ih hm)
        · exact Or.inr (hu _ _ hm)
      cases x with
      | inl a => exact this _ (api_proper _ a)
      | inr y => exact this _ (receive_proper _ _ _)

/-- Frames that handlers are told about were taken. -/
theorem frame_notice {s : CtlState} {e : ErrorState} {t : List Out} {n : FrameEvent} (h : Notice.frame n ∈ noticesFrom s e t) :
    ∃ src f, Out.takes src (.frame f) ∈ t ∧ n = { f with ctx := if includesTx f.direction then f.ctx else 0 } := by
  induction t generalizing s e with
  | nil => cases h
  | cons o t ih =>
      have lift : (∃ src f, Out.takes src (.frame f) ∈ t ∧ n = { f with ctx := if includesTx f.direction then f.ctx else 0 }) →
          ∃ src f, Out.takes src (.frame f) ∈ o :: t ∧ n = { f with ctx := if includesTx f.direction then f.ctx else 0 } := by
        rintro ⟨src, f, h1, h2⟩; exact ⟨src, f, List.mem_cons_of_mem _ h1, h2⟩
      cases o with
      | takes src m =>
          cases m with
          | frame f =>
              simp only [noticesFrom, List.mem_cons] at h
              rcases h with h | h
              · injection h with h; exact ⟨src, f, List.mem_cons_self, h⟩
              · exact lift (ih h)
          | ack a =>
              simp only [noticesFrom, List.mem_cons] at h
              rcases h with h | h
              · cases h
              · exact lift (ih h)
          | status s' e' =>
              simp only [noticesFrom, List.mem_append] at h
              rcases h with (h | h) | h
              · split at h <;> simp at h
              · split at h <;> simp at h
              · exact lift (ih h)
      | _ => exact lift (ih h)

/-! ## Only added handlers are called -/

/-- Handlers that are there, and handlers that are called, have been added. -/
structure Q (c : Ctl) (t : List Out) : Prop where
  ent : ∀ k x, x ∈ (c.handlers k).entries → Out.added k x.1 x.2 ∈ t
  called : ∀ id n, Out.called id n ∈ t → ∃ mask, Out.added n.kind id mask ∈ t

theorem Q.extend {c c' : Ctl} {t u : List Out} (h : Q c t) (hh : ∀ k x, x ∈ (c'.handlers k).entries → x ∈ (c.handlers k).entries ∨ Out.added k x.1 x.2 ∈ u)
    (hu : ∀ id n, Out.called id n ∈ u → ∃ x ∈ (c.handlers n.kind).entries, x.1 = id) : Q c' (t ++ u) := by
  refine ⟨?_, ?_⟩
  · intro k x hx
    rw [List.mem_append]
    rcases hh k x hx with h1 | h1
    · exact Or.inl (h.ent k x h1)
    · exact Or.inr h1
  · intro id n hm
    rw [List.mem_append] at hm
    rcases hm with hm | hm
    · obtain ⟨mask, h1⟩ := h.called id n hm; exact ⟨mask, List.mem_append_left _ h1⟩
    · obtain ⟨x, hx, e⟩ := hu id n hm
      exact ⟨x.2, List.mem_append_left _ (by rw [← e]; exact h.ent _ x hx)⟩

theorem notify_entry {c : Ctl} {n n' : Notice} {id : Nat} (h : Out.called id n' ∈ c.notify n) : ∃ x ∈ (c.handlers n'.kind).entries, x.1 = id := by
  have e := mem_notify h
  subst e
  unfold Ctl.notify at h
  rw [List.mem_map] at h
  obtain ⟨x, hx, e⟩ := h
  injection e with e _
  exact ⟨x, (List.mem_filter.1 hx).1, e⟩

theorem take_entry {c : Ctl} {src : Option (Nat × Nat)} {m : Msg} {id : Nat} {n : Notice} (h : Out.called id n ∈ (c.take src m).2) :
    ∃ x ∈ (c.handlers n.kind).entries, x.1 = id := by
  cases m with
  | frame e =>
      simp only [Ctl.take, List.mem_cons] at h
      rcases h with h | h
      · cases h
      · exact notify_entry h
  | ack a =>
      simp only [Ctl.take, List.mem_cons] at h
      rcases h with h | h
      · cases h
      · exact notify_entry h
  | status s e =>
      simp only [Ctl.take, List.mem_cons, List.mem_append] at h
      rcases h with h | h | h
      · cases h
      · unfold Ctl.setState at h
        split at h
        · have := notify_entry h; exact this
        · cases h
      · obtain ⟨-, -, a3, -⟩ := setState_spec c s
        unfold Ctl.setError at h
        split at h
        · have := notify_entry h; simp only at this; rw [a3] at this; exact this
        · cases h

theorem take_handlers (c : Ctl) (src : Option (Nat × Nat)) (m : Msg) : (c.take src m).1.handlers = c.handlers := by
  cases m with
  | frame e => rfl
  | ack a => rfl
  | status s e =>
      simp only [Ctl.take]
      exact (setError_spec _ e).2.2.1.trans (setState_spec c s).2.2.1

theorem Q.take {c : Ctl} {t : List Out} (h : Q c t) (src : Option (Nat × Nat)) (m : Msg) : Q (c.take src m).1 (t ++ (c.take src m).2) :=
  h.extend (by rw [take_handlers]; exact fun _ _ hx => Or.inl hx) (fun _ _ hm => take_entry hm)

theorem Q.other {c c' : Ctl} {t : List Out} (h : Q c t) (u : List Out) (hu : ∀ id n, Out.called id n ∉ u) (hh : c'.handlers = c.handlers) : Q c' (t ++ u) :=
  h.extend (by rw [hh]; exact fun _ _ hx => Or.inl hx) (fun id n hm => absurd hm (hu id n))

theorem Q.receive {c : Ctl} {t : List Out} (h : Q c t) (src : Nat × Nat) (m : Msg) : Q (c.receive src m).1 (t ++ (c.receive src m).2) := by
  unfold Ctl.receive
  split
  · exact h.take _ m
  · exact h.other _ (by simp) rfl

theorem Q.setMode {c : Ctl} {t : List Out} (h : Q c t) (s : CtlState) : Q (c.setMode s).1 (t ++ (c.setMode s).2) := by
  unfold Ctl.setMode
  split
  · exact h.take _ _
  · exact h.other _ (by simp) rfl

theorem Q.step {c : Ctl} {t : List Out} (h : Q c t) (x : Input) : Q (step (c, t) x).1 (step (c, t) x).2 := by
  cases x with
  | inr y => exact h.receive _ _
  | inl a =>
      have ha : ∀ r : Ctl × List Out, Q r.1 (t ++ r.2) → Q (asActs r).1 (t ++ (asActs r).2.filterMap actOut) := by
        intro r hr; simp only [asActs]; rw [filterMap_out]; exact hr
      cases a with
      | start => exact ha _ (h.setMode _)
      | stop => exact ha _ (h.setMode _)
      | sleep => exact ha _ (h.setMode _)
      | reset => exact ha _ (h.setMode _)
      | addHandler k mask =>
          refine ha _ (h.extend ?_ (by simp [Ctl.addHandler]))
          intro k' x hx
          simp only [Ctl.addHandler, Ctl.setHandlers] at hx ⊢
          split at hx
          · rename_i e; subst e
            simp only [List.mem_append, List.mem_singleton] at hx
            rcases hx with hx | hx
            · exact Or.inl hx
            · right; rw [hx]; exact List.mem_singleton_self _
          · exact Or.inl hx
      | removeHandler k id =>
          refine ha _ (h.extend ?_ (by simp [Ctl.removeHandler]))
          intro k' x hx
          simp only [Ctl.removeHandler, Ctl.setHandlers] at hx
          split at hx
          · rename_i e; subst e; exact Or.inl (List.mem_filter.1 hx).1
          · exact Or.inl hx
      | sim y =>
          refine ha _ ?_
          cases y with
          | msg src m => exact h.receive _ _
          | linkCreated q net => simp only [Ctl.onSim]; split <;> exact h.other _ (by simp) rfl
          | linkRemoved q net => simp only [Ctl.onSim]; split <;> exact h.other _ (by simp) rfl
      | sendFrame f ctx =>
          simp only [Spec.step, Ctl.api, Ctl.sendFrame]
          cases c.sim with
          | some q => exact h.other _ (by simp [actOut]) rfl
          | none =>
              simp only
              split
              · rw [List.filterMap_cons]
                simp only [actOut]
                rw [filterMap_out, ← List.append_assoc]
                exact Q.take (Q.take h none (.frame ⟨f, .tx, ctx⟩)) none (.ack ⟨f.canId, .transmitted, ctx⟩)
              · exact h.other _ (by simp [actOut]) rfl

theorem run_Q (i : Nat) (net : String) (h : List Input) : Q (run i net h).1 (run i net h).2 := by
  rw [← List.reverse_reverse h]
  induction h.reverse with
  | nil => exact ⟨fun _ _ hx => by simp [run] at hx, fun _ _ hx => by simp [run] at hx⟩
  | cons x h ih => rw [List.reverse_cons, run_snoc]; exact ih.step x

def addedId (k : Kind) : Out → Option Nat
  | .added k' id _ => if k' = k then some id else none
  | _ => none

/-- Identifiers are given in order. -/
def Ids (c : Ctl) (t : List Out) : Prop := ∀ k, t.filterMap (addedId k) = List.range (c.handlers k).next

theorem Ids.other {c c' : Ctl} {t u : List Out} (h : Ids c t) (hu : ∀ k id mask, Out.added k id mask ∉ u) (hh : c'.handlers = c.handlers) : Ids c' (t ++ u) := by
  intro k
  rw [List.filterMap_append, h k, hh]
  have : u.filterMap (addedId k) = [] := by
    rw [List.filterMap_eq_nil_iff]
    intro o ho
    cases o with
    | added k' id mask => exact absurd ho (hu _ _ _)
    | _ => rfl
  rw [this, List.append_nil]

theorem take_not_added (c : Ctl) (src : Option (Nat × Nat)) (m : Msg) : ∀ k id mask, Out.added k id mask ∉ (c.take src m).2 := by
  intro k id mask h
  have hc : ∀ l : List Out, (∀ o ∈ l, isCalled o = true) → Out.added k id mask ∉ l := fun l hl => (called_not_added hl).1 k id mask
  cases m with
  | frame e =>
      simp only [Ctl.take, List.mem_cons] at h
      rcases h with h | h
      · cases h
      · exact hc _ (notify_called _ _) h
  | ack a =>
      simp only [Ctl.take, List.mem_cons] at h
      rcases h with h | h
      · cases h
      · exact hc _ (notify_called _ _) h
  | status s e =>
      simp only [Ctl.take, List.mem_cons, List.mem_append] at h
      rcases h with h | h | h
      · cases h
      · exact hc _ (setState_spec c s).2.2.2.1 h
      · exact hc _ (setError_spec _ e).2.2.2.1 h

theorem Ids.take {c : Ctl} {t : List Out} (h : Ids c t) (src : Option (Nat × Nat)) (m : Msg) : Ids (c.take src m).1 (t ++ (c.take src m).2) :=
  h.other (take_not_added c src m) (take_handlers c src m)

theorem Ids.receive {c : Ctl} {t : List Out} (h : Ids c t) (src : Nat × Nat) (m : Msg) : Ids (c.receive src m).1 (t ++ (c.receive src m).2) := by
  unfold Ctl.receive
  split
  · exact h.take _ m
  · exact h.other (by simp) rfl

theorem Ids.setMode {c : Ctl} {t : List Out} (h : Ids c t) (s : CtlState) : Ids (c.setMode s).1 (t ++ (c.setMode s).2) := by
  unfold Ctl.setMode
  split
  · exact h.take _ _
  · exact h.other (by simp) rfl

theorem Ids.step {c : Ctl} {t : List Out} (h : Ids c t) (x : Input) : Ids (step (c, t) x).1 (step (c, t) x).2 := by
  cases x with
  | inr y => exact h.receive _ _
  | inl a =>
      have ha : ∀ r : Ctl × List Out, Ids r.1 (t ++ r.2) → Ids (asActs r).1 (t ++ (asActs r).2.filterMap actOut) := by
        intro r hr; simp only [asActs]; rw [filterMap_out]; exact hr
      cases a with
      | start => exact ha _ (h.setMode _)
      | stop => exact ha _ (h.setMode _)
      | sleep => exact ha _ (h.setMode _)
      | reset => exact ha _ (h.setMode _)
      | addHandler k mask =>
          refine ha _ ?_
          intro k'
          simp only [Ctl.addHandler, Ctl.setHandlers]
          rw [List.filterMap_append, h k']
          by_cases hk : k' = k
          · subst hk; rw [if_pos rfl, List.range_succ]; simp [addedId]
          · rw [if_neg hk]; simp [addedId, Ne.symm hk]
      | removeHandler k id =>
          refine ha _ ?_
          intro k'
          simp only [Ctl.removeHandler, Ctl.setHandlers]
          rw [List.filterMap_append, h k']
          by_cases hk : k' = k
          · subst hk; rw [if_pos rfl]; simp [addedId]
          · rw [if_neg hk]; simp [addedId]
      | sim y =>
          refine ha _ ?_
          cases y with
          | msg src m => exact h.receive _ _
          | linkCreated q net => simp only [Ctl.onSim]; split <;> exact h.other (by simp) rfl
          | linkRemoved q net => simp only [Ctl.onSim]; split <;> exact h.other (by simp) rfl
      | sendFrame f ctx =>
          simp only [Spec.step, Ctl.api, Ctl.sendFrame]
          cases c.sim with
          | some q => exact h.other (by simp [actOut]) rfl
          | none =>
              simp only
              split
              · rw [List.filterMap_cons]
                simp only [actOut]
                rw [filterMap_out, ← List.append_assoc]
                exact Ids.take (c := (c.take none (.frame ⟨f, .tx, ctx⟩)).1) (Ids.take h none (.frame ⟨f, .tx, ctx⟩)) none (.ack ⟨f.canId, .transmitted, ctx⟩)
              · exact h.other (by simp [actOut]) rfl

theorem run_Ids (i : Nat) (net : String) (h : List Input) : Ids (run i net h).1 (run i net h).2 := by
  rw [← List.reverse_reverse h]
  induction h.reverse with
  | nil => intro k; rfl
  | cons x h ih => rw [List.reverse_cons, run_snoc]; exact Ids.step ih x

/-! ## The simulator -/

theorem take_sim (c : Ctl) (src : Option (Nat × Nat)) (m : Msg) : (c.take src m).1.sim = c.sim ∧ (c.take src m).1.net = c.net ∧ (c.take src m).1.id = c.id := by
  cases m with
  | frame e => exact ⟨rfl, rfl, rfl⟩
  | ack a => exact ⟨rfl, rfl, rfl⟩
  | status s e =>
      obtain ⟨-, -, -, -, h1, h2, h3⟩ := setState_spec c s
      obtain ⟨-, -, -, -, h4, h5, h6⟩ := setError_spec (c.setState s).1 e
      simp only [Ctl.take]
      exact ⟨h6.trans h3, h5.trans h2, h4.trans h1⟩

theorem simulatorFrom_append (net : String) (s : Option Nat) (a b : List Input) :
    simulatorFrom net s (a ++ b) = simulatorFrom net (simulatorFrom net s a) b := by
  induction a generalizing s with
  | nil => rw [List.nil_append]; simp [simulatorFrom]
  | cons x a ih =>
      rw [List.cons_append]
      cases s with
      | none =>
          cases x with
          | inl c =>
              cases c with
              | sim y => cases y <;> simp only [simulatorFrom] <;> exact ih _
              | _ => simp only [simulatorFrom]; exact ih _
          | inr y => simp only [simulatorFrom]; exact ih _
      | some q =>
          cases x with
          | inl c =>
              cases c with
              | sim y => cases y <;> simp only [simulatorFrom] <;> exact ih _
              | _ => simp only [simulatorFrom]; exact ih _
          | inr y => simp only [simulatorFrom]; exact ih _

theorem receive_sim (c : Ctl) (src : Nat × Nat) (m : Msg) : (c.receive src m).1.sim = c.sim ∧ (c.receive src m).1.net = c.net ∧ (c.receive src m).1.id = c.id := by
  unfold Ctl.receive; split
  · exact take_sim c _ m
  · exact ⟨rfl, rfl, rfl⟩

theorem setMode_sim (c : Ctl) (s : CtlState) : (c.setMode s).1.sim = c.sim ∧ (c.setMode s).1.net = c.net ∧ (c.setMode s).1.id = c.id := by
  unfold Ctl.setMode; split
  · exact take_sim c _ _
  · exact ⟨rfl, rfl, rfl⟩

theorem simulatorFrom_other (net : String) (s : Option Nat) (x : Input) (hx : ∀ y, x ≠ .inl (.sim y)) : simulatorFrom net s [x] = s := by
  cases x with
  | inl c =>
      cases c with
      | sim y => exact absurd rfl (hx y)
      | _ => cases s <;> simp [simulatorFrom]
  | inr y => cases s <;> simp [simulatorFrom]

theorem run_sim (i : Nat) (net : String) (h : List Input) :
    (run i net h).1.sim = simulatorFrom net none h ∧ (run i net h).1.net = net ∧ (run i net h).1.id = i := by
  rw [← List.reverse_reverse h]
  induction h.reverse with
  | nil => exact ⟨by simp [run, simulatorFrom], rfl, rfl⟩
  | cons x h ih =>
      rw [List.reverse_cons, run_snoc, simulatorFrom_append]
      obtain ⟨i1, i2, i3⟩ := ih
      rw [← i1]
      generalize (run i net h.reverse) = r at i1 i2 i3 ⊢
      have other : ∀ c' : Ctl, (c'.sim = r.1.sim ∧ c'.net = r.1.net ∧ c'.id = r.1.id) → (∀ y, x ≠ .inl (.sim y)) →
          c'.sim = simulatorFrom net r.1.sim [x] ∧ c'.net = net ∧ c'.id = i := by
        intro c' hc hx
        rw [simulatorFrom_other _ _ _ hx, hc.1, hc.2.1, hc.2.2]; exact ⟨rfl, i2, i3⟩
      cases x with
      | inr y => exact other _ (receive_sim _ _ _) (by simp)
      | inl a =>
          cases a with
          | start => exact other _ (setMode_sim _ _) (by simp)
          | stop => exact other _ (setMode_sim _ _) (by simp)
          | sleep => exact other _ (setMode_sim _ _) (by simp)
          | reset => exact other _ (setMode_sim _ _) (by simp)
          | sendFrame f ctx => exact other _ ⟨rfl, rfl, rfl⟩ (by simp)
          | addHandler k m => exact other _ ⟨rfl, rfl, rfl⟩ (by simp)
          | removeHandler k id => exact other _ ⟨rfl, rfl, rfl⟩ (by simp)
          | sim y =>
              cases y with
              | msg src m =>
                  have := receive_sim r.1 src m
                  simp only [step, Ctl.api, asActs, Ctl.onSim]
                  rw [this.1, this.2.1, this.2.2]
                  exact ⟨by cases r.1.sim <;> simp [simulatorFrom], i2, i3⟩
              | linkCreated q net' =>
                  simp only [step, Ctl.api, asActs, Ctl.onSim]
                  rw [i2]
                  cases hs : r.1.sim with
                  | none =>
                      by_cases hn : net' = net
                      · simp [simulatorFrom, hn, i2, i3]
                      · simp [simulatorFrom, hn, i2, i3, hs]
                  | some q' => simp [simulatorFrom, i2, i3, hs]
              | linkRemoved q net' =>
                  simp only [step, Ctl.api, asActs, Ctl.onSim]
                  rw [i2]
                  cases hs : r.1.sim with
                  | some q' =>
                      by_cases hn : net' = net
                      · simp [simulatorFrom, hn, i2, i3]
                      · simp [simulatorFrom, hn, i2, i3, hs]
                  | none => simp [simulatorFrom, i2, i3, hs]

theorem take_src {c : Ctl} {src : Option (Nat × Nat)} {m m' : Msg} {src' : Option (Nat × Nat)} (h : Out.takes src' m' ∈ (c.take src m).2) : src' = src := by
  have hc : ∀ l : List Out, (∀ o ∈ l, isCalled o = true) → Out.takes src' m' ∉ l := fun l hl hm => absurd (hl _ hm) (by simp [isCalled])
  cases m with
  | frame e =>
      simp only [Ctl.take, List.mem_cons] at h
      rcases h with h | h
      · injection h
      · exact absurd h (hc _ (notify_called _ _))
  | ack e =>
      simp only [Ctl.take, List.mem_cons] at h
      rcases h with h | h
      · injection h
      · exact absurd h (hc _ (notify_called _ _))
  | status s e =>
      simp only [Ctl.take, List.mem_cons, List.mem_append] at h
      rcases h with h | h | h
      · injection h
      · exact absurd h (hc _ (setState_spec c s).2.2.2.1)
      · exact absurd h (hc _ (setError_spec _ e).2.2.2.1)

theorem receive_src {c : Ctl} {src s : Nat × Nat} {m m' : Msg} {q : Nat} (hq : c.sim = some q) (h : Out.takes (some s) m' ∈ (c.receive src m).2) :
    s = (q, c.id) := by
  unfold Ctl.receive at h
  split at h
  · rename_i ha
    have e := take_src h
    injection e with e; subst e
    unfold Ctl.allows at ha
    rw [hq] at ha
    simp only [Bool.and_eq_true, beq_iff_eq] at ha
    exact Prod.ext ha.1 ha.2
  · cases h

/-- While a network is simulated, a controller takes messages from the simulation only. -/
theorem step_simulated {r : Ctl × List Out} {q : Nat} (hq : r.1.sim = some q) (x : Input) :
    ∃ u, (step r x).2 = r.2 ++ u ∧ ∀ src m, Out.takes src m ∈ u → src = some (q, r.1.id) := by
  have hsome : ∀ src' (m' m : Msg) src, Out.takes src m ∈ (r.1.receive src' m').2 → src = some (q, r.1.id) := by
    intro src' m' m src hm
    cases src with
    | some s => rw [receive_src hq hm]
    | none =>
        unfold Ctl.receive at hm
        split at hm
        · cases take_src hm
        · cases hm
  have hmode : ∀ s, ∀ src m, Out.takes src m ∈ (asActs (r.1.setMode s)).2.filterMap actOut → src = some (q, r.1.id) := by
    intro s src m hm
    simp only [asActs] at hm
    rw [filterMap_out] at hm
    unfold Ctl.setMode at hm
    rw [hq] at hm
    simp at hm
  cases x with
  | inr y => exact ⟨_, rfl, fun src m hm => hsome _ _ _ _ hm⟩
  | inl a =>
      refine ⟨_, rfl, ?_⟩
      cases a with
      | start => exact hmode _
      | stop => exact hmode _
      | sleep => exact hmode _
      | reset => exact hmode _
      | addHandler k mask => intro src m hm; simp [Ctl.api, asActs, Ctl.addHandler, actOut] at hm
      | removeHandler k mask => intro src m hm; simp [Ctl.api, asActs, Ctl.removeHandler, actOut] at hm
      | sendFrame f ctx => intro src m hm; simp [Ctl.api, Ctl.sendFrame, hq, actOut] at hm
      | sim y =>
          intro src m hm
          simp only [Ctl.api, asActs] at hm
          rw [filterMap_out] at hm
          cases y with
          | msg s' m' => exact hsome _ _ _ _ hm
          | linkCreated q net => simp only [Ctl.onSim] at hm; split at hm <;> cases hm
          | linkRemoved q net => simp only [Ctl.onSim] at hm; split at hm <;> cases hm

end SilKit.Can
