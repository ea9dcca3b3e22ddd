import Verif.Lemmas.LinksFlow
/-! # What the services of a participant receive -/
namespace SilKit.Links
open Spec SilKit.Util

variable {V : Type} {off : Nat → MsgType → String → Bool}

/-- Whether the service `svc` receives what the service `svc'` of its own participant sends. -/
def SelfReceives (ty : MsgType) (svc svc' : Nat) : Prop :=
  selfDeliveryForbidden ty = false ∧ (selfDeliveryEnforced ty = true ∨ svc ≠ svc')

instance (ty : MsgType) (svc svc' : Nat) : Decidable (SelfReceives ty svc svc') := by unfold SelfReceives; infer_instance

/-- The values an output brings from `p` to the service `svc` of `q`, if that service receives. -/
def incoming (q svc : Nat) (ty : MsgType) (net : String) (p : Nat) : Out V → Option V
  | .arrived q' p' ty' net' v => if q' = q ∧ p' = p ∧ ty' = ty ∧ net' = net then some v else none
  | .published x svc' ty' net' v => if x = q ∧ p = q ∧ ty' = ty ∧ net' = net ∧ SelfReceives ty svc svc' then some v else none
  | _ => none

structure R (q svc : Nat) (ty : MsgType) (net : String) (p : Nat) (s : State V) (t : List (Out V)) : Prop where
  loc : svc ∈ (s.link q ty net).locals ↔ Out.registered q ty net svc ∈ t
  nodup : (s.link q ty net).locals.Nodup
  notYet : Out.registered q ty net svc ∉ t → received q svc ty net p t = []
  since : ∀ a b, t = a ++ .registered q ty net svc :: b → Out.registered q ty net svc ∉ a →
    received q svc ty net p t = b.filterMap (incoming q svc ty net p)

theorem init_R (q svc : Nat) (ty : MsgType) (net : String) (p : Nat) : R q svc ty net p (init off : State V) [] := by
  refine ⟨by simp [init], by simp [init], fun _ => rfl, ?_⟩
  intro a b e; simp at e

/-- An event other than the registration of this service. -/
theorem R.step {q svc : Nat} {ty : MsgType} {net : String} {p : Nat} {s s' : State V} {t u : List (Out V)} (r : R q svc ty net p s t)
    (hreg : Out.registered q ty net svc ∉ u) (hl : svc ∈ (s'.link q ty net).locals ↔ svc ∈ (s.link q ty net).locals)
    (hnd : (s'.link q ty net).locals.Nodup)
    (hin : svc ∈ (s.link q ty net).locals → received q svc ty net p u = u.filterMap (incoming q svc ty net p))
    (hout : svc ∉ (s.link q ty net).locals → received q svc ty net p u = []) : R q svc ty net p s' (t ++ u) := by
  refine ⟨?_, hnd, ?_, ?_⟩
  · rw [hl, r.loc, List.mem_append]; simp [hreg]
  · intro h
    have h' : Out.registered q ty net svc ∉ t := fun h' => h (List.mem_append_left _ h')
    rw [received_append, r.notYet h', hout (fun h => h' (r.loc.1 h))]; rfl
  · intro a b e hna
    rcases split_append e with ⟨b', e1, e2⟩ | ⟨a', e1, e2⟩
    · have hm : svc ∈ (s.link q ty net).locals := r.loc.2 (by rw [e1]; simp)
      rw [received_append, r.since a b' e1 hna, hin hm, e2, List.filterMap_append]
    · exact absurd (by rw [e2]; simp) hreg

theorem R.still {q svc : Nat} {ty : MsgType} {net : String} {p : Nat} {s s' : State V} {t u : List (Out V)} (r : R q svc ty net p s t)
    (hreg : Out.registered q ty net svc ∉ u) (hl : (s'.link q ty net).locals = (s.link q ty net).locals)
    (hu : received q svc ty net p u = []) (hi : u.filterMap (incoming q svc ty net p) = []) : R q svc ty net p s' (t ++ u) :=
  r.step hreg (by rw [hl]) (by rw [hl]; exact r.nodup) (fun _ => by rw [hu, hi]) (fun _ => hu)

theorem register_R {q svc : Nat} {ty : MsgType} {net : String} {p : Nat} {s : State V} {t : List (Out V)} (r : R q svc ty net p s t)
    (x : Nat) (ty' : MsgType) (net' : String) (svc' : Nat) :
    R q svc ty net p (register s x ty' net' svc') (t ++ [.registered x ty' net' svc']) := by
  have h2 := (register_receivers s x ty' net' svc').2.1
  have hrec : received q svc ty net p [(Out.registered x ty' net' svc' : Out V)] = [] := rfl
  have hinc : [(Out.registered x ty' net' svc' : Out V)].filterMap (incoming q svc ty net p) = [] := rfl
  by_cases hlink : q = x ∧ ty = ty' ∧ net = net'
  · obtain ⟨rfl, rfl, rfl⟩ := hlink
    have hloc : ((register s q ty net svc').link q ty net).locals =
        if (s.link q ty net).locals.contains svc' then (s.link q ty net).locals else (s.link q ty net).locals ++ [svc'] := by
      rw [h2]; simp only [and_self, if_true, Link.addLocal]; split <;> rfl
    have hnd : ((register s q ty net svc').link q ty net).locals.Nodup := by
      rw [hloc]
      split
      · exact r.nodup
      · rename_i hc
        rw [List.nodup_append]
        refine ⟨r.nodup, by simp, ?_⟩
        intro a ha b hb
        simp at hb; subst hb
        rintro rfl
        exact hc (by simpa using ha)
    have hmem : svc ∈ ((register s q ty net svc').link q ty net).locals ↔ svc ∈ (s.link q ty net).locals ∨ svc = svc' := by
      rw [hloc]
      split
      · rename_i hc
        constructor
        · exact Or.inl
        · rintro (h | h)
          · exact h
          · rw [h]; simpa using hc
      · simp
    by_cases hs : svc = svc'
    · subst hs
      refine ⟨?_, hnd, ?_, ?_⟩
      · rw [hmem]; simp
      · intro h; exact absurd (by simp) h
      · intro a b e hna
        rcases split_append e with ⟨b', e1, e2⟩ | ⟨a', e1, e2⟩
        · rw [received_append, r.since a b' e1 hna, hrec, e2, List.filterMap_append]; rfl
        · cases a' with
          | cons o a' => simp at e2
          | nil =>
              simp at e2
              subst e2
              rw [List.append_nil] at e1
              subst e1
              rw [received_append, r.notYet hna]; rfl
    · refine r.step (by simp [hs]) (by rw [hmem]; simp [hs]) hnd (fun _ => rfl) (fun _ => rfl)
  · refine r.still ?_ ?_ hrec hinc
    · simp; rintro rfl rfl rfl rfl; exact hlink ⟨rfl, rfl, rfl⟩
    · rw [h2, if_neg hlink]

theorem filterMap_locals {l : List Nat} (hn : l.Nodup) (svc : Nat) (v : V) :
    l.filterMap (fun r => if r = svc then some v else none) = if svc ∈ l then [v] else [] := by
  induction l with
  | nil => simp
  | cons x l ih =>
      have hn' := List.nodup_cons.1 hn
      rw [List.filterMap_cons, ih hn'.2]
      by_cases h : x = svc
      · subst h; simp [hn'.1]
      · have : ¬ svc = x := fun h' => h h'.symm
        simp [h, this]

/-- The calls of a list of services with one value, as seen by one service. -/
theorem received_map {l : List Nat} (hn : l.Nodup) (q svc : Nat) (ty : MsgType) (net : String) (p : Nat) (x : Nat) (ty' : MsgType) (net' : String)
    (y : Nat) (v : V) : received q svc ty net p (l.map (fun r => .received x r ty' net' y v)) =
      if x = q ∧ ty' = ty ∧ net' = net ∧ y = p ∧ svc ∈ l then [v] else [] := by
  have e : received q svc ty net p (l.map (fun r => .received x r ty' net' y v)) =
      l.filterMap (fun r => if x = q ∧ r = svc ∧ ty' = ty ∧ net' = net ∧ y = p then some v else none) := by
    rw [received, List.filterMap_map]; rfl
  rw [e]
  by_cases h : x = q ∧ ty' = ty ∧ net' = net ∧ y = p
  · obtain ⟨rfl, rfl, rfl, rfl⟩ := h
    simpa using filterMap_locals hn svc v
  · rw [if_neg (fun h' => h ⟨h'.1, h'.2.1, h'.2.2.1, h'.2.2.2.1⟩)]
    rw [List.filterMap_eq_nil_iff]
    intro r _
    rw [if_neg]
    rintro ⟨a, b, c, d, e⟩
    exact h ⟨a, c, d, e⟩

theorem incoming_map (l : List Nat) (q svc : Nat) (ty : MsgType) (net : String) (p : Nat) (x : Nat) (ty' : MsgType) (net' : String) (y : Nat) (v : V) :
    (l.map (fun r => Out.received x r ty' net' y v)).filterMap (incoming q svc ty net p) = [] := by
  rw [List.filterMap_map, List.filterMap_eq_nil_iff]
  intro r _; rfl

theorem mem_selfReceivers {ty : MsgType} {l : Link V} (svc svc' : Nat) :
    svc ∈ l.selfReceivers ty svc' ↔ svc ∈ l.locals ∧ SelfReceives ty svc svc' := by
  unfold Link.selfReceivers SelfReceives
  cases selfDeliveryForbidden ty <;> cases selfDeliveryEnforced ty <;> simp

theorem selfReceivers_nodup {ty : MsgType} {l : Link V} (h : l.locals.Nodup) (svc : Nat) : (l.selfReceivers ty svc).Nodup := by
  unfold Link.selfReceivers
  split
  · exact List.nodup_nil
  · split
    · exact h
    · exact List.Nodup.sublist List.filter_sublist h

theorem registered_map (l : List Nat) (q svc : Nat) (ty : MsgType) (net : String) (x : Nat) (ty' : MsgType) (net' : String) (y : Nat) (v : V) :
    Out.registered q ty net svc ∉ l.map (fun r => Out.received x r ty' net' y v) := by simp

theorem locals_nodup (h : List (Event V)) (q : Nat) (ty : MsgType) (net : String) : ((run off h).1.link q ty net).locals.Nodup := by
  rw [← List.reverse_reverse h]
  induction h.reverse with
  | nil => simp [run, init]
  | cons e h ih =>
      rw [List.reverse_cons, run_append]
      generalize run off h.reverse = r at ih ⊢
      cases e with
      | register x ty' net' svc' =>
          simp only [on]
          rw [(register_receivers r.1 x ty' net' svc').2.1]
          split
          · rename_i hh
            obtain ⟨rfl, rfl, rfl⟩ := hh
            unfold Link.addLocal
            split
            · exact ih
            · rename_i hc
              show List.Nodup (_ ++ _)
              rw [List.nodup_append]
              refine ⟨ih, by simp, ?_⟩
              intro a ha b hb
              simp at hb; subst hb
              rintro rfl
              exact hc (by simpa using ha)
          · exact ih
      | connect x y => simp only [on, connect]; split <;> exact ih
      | announce x y => simp only [on]; split <;> exact ih
      | send x svc' ty' net' v =>
          simp only [on]
          rw [(send_facts r.1 x svc' ty' net' v).1]
          split
          · rename_i hh
            obtain ⟨rfl, rfl, rfl⟩ := hh
            rw [(save_remotes _ _ _).2.1]; exact ih
          · exact ih
      | deliver x y =>
          simp only [on]
          rcases deliver_cases r.1 x y with h | ⟨w, ws, hc, ho, e⟩
          · rw [h]; exact ih
          · rw [e]
            cases w with
            | data idx ty' v => rw [handle_data_state]; exact ih
            | subscribe idx net' sd =>
                simp only [handle]
                have key : ∀ (l : List MsgType) (r0 : State V × List (Out V)), (r0.1.link q ty net).locals.Nodup →
                    (((l.foldl (subscribeStep y x idx net' sd) r0).1).link q ty net).locals.Nodup := by
                  intro l
                  induction l with
                  | nil => intro r0 h0; exact h0
                  | cons z l ihl =>
                      intro r0 h0
                      refine ihl _ ?_
                      unfold subscribeStep
                      split
                      · dsimp only
                        split
                        · exact h0
                        · show ((r0.1.setLink y z net' _).link q ty net).locals.Nodup
                          rw [setLink_link]
                          split
                          · rename_i hh; obtain ⟨rfl, rfl, rfl⟩ := hh
                            unfold Link.addRemote; split <;> exact h0
                          · exact h0
                      · exact h0
                exact key allTypes _ ih
      | close x y =>
          simp only [on]
          by_cases h : r.1.status x y = .isOpen
          · rw [close_link h]; split <;> exact ih
          · have e : close r.1 x y = (r.1, []) := by unfold close; rw [if_neg h]
            rw [e]; exact ih

theorem subscribeStep_facts (y x idx : Nat) (net' sd : String) (r : State V × List (Out V)) (z : MsgType) (q : Nat) (ty : MsgType) (net : String) :
    (((subscribeStep y x idx net' sd r z).1).link q ty net).locals = (r.1.link q ty net).locals ∧
    ∃ l : List (Nat × Nat × MsgType × String), (subscribeStep y x idx net' sd r z).2 = r.2 ++ l.map (fun a => .accepted a.1 a.2.1 a.2.2.1 a.2.2.2) := by
  unfold subscribeStep
  split
  · dsimp only
    split
    · exact ⟨rfl, [], by simp⟩
    · refine ⟨?_, [(y, x, z, net')], rfl⟩
      show ((r.1.setLink y z net' _).link q ty net).locals = _
      rw [setLink_link]
      split
      · rename_i hh; obtain ⟨rfl, rfl, rfl⟩ := hh
        unfold Link.addRemote; split <;> rfl
      · rfl
  · exact ⟨rfl, [], by simp⟩

theorem foldl_subscribe_facts (y x idx : Nat) (net' sd : String) (q : Nat) (ty : MsgType) (net : String) (types : List MsgType) (r : State V × List (Out V)) :
    (((types.foldl (subscribeStep y x idx net' sd) r).1).link q ty net).locals = (r.1.link q ty net).locals ∧
    ∃ l : List (Nat × Nat × MsgType × String), (types.foldl (subscribeStep y x idx net' sd) r).2 =
      r.2 ++ l.map (fun a => .accepted a.1 a.2.1 a.2.2.1 a.2.2.2) := by
  induction types generalizing r with
  | nil => exact ⟨rfl, [], by simp⟩
  | cons z types ih =>
      obtain ⟨h1, l1, h2⟩ := subscribeStep_facts y x idx net' sd r z q ty net
      obtain ⟨h3, l2, h4⟩ := ih (subscribeStep y x idx net' sd r z)
      exact ⟨h3.trans h1, l1 ++ l2, by rw [List.foldl_cons, h4, h2]; simp⟩

theorem on_R {q svc : Nat} {ty : MsgType} {net : String} {p : Nat} {s : State V} {t : List (Out V)} (g : G s) (hnd : ∀ q ty net, (s.link q ty net).locals.Nodup)
    (r : R q svc ty net p s t) (e : Event V) : R q svc ty net p (on s e).1 (t ++ (on s e).2) := by
  cases e with
  | register x ty' net' svc' => exact register_R r x ty' net' svc'
  | connect x y => simp only [on, connect]; split <;> exact r.still (by simp) rfl rfl rfl
  | announce x y => simp only [on]; split <;> exact r.still (by simp) rfl rfl rfl
  | send x svc' ty' net' v =>
      simp only [on]
      have hlink := (send_facts s x svc' ty' net' v).1
      have hloc : ((send s x svc' ty' net' v).1.link q ty net).locals = (s.link q ty net).locals := by
        rw [hlink]
        split
        · rename_i hh; obtain ⟨rfl, rfl, rfl⟩ := hh; exact (save_remotes _ _ _).2.1
        · rfl
      have hu : (send s x svc' ty' net' v).2 = [.published x svc' ty' net' v] ++ ((s.link x ty' net').selfReceivers ty' svc').map (fun r => .received x r ty' net' x v) := rfl
      have hrec : received q svc ty net p (send s x svc' ty' net' v).2 =
          if x = q ∧ ty' = ty ∧ net' = net ∧ x = p ∧ svc ∈ (s.link x ty' net').selfReceivers ty' svc' then [v] else [] := by
        rw [hu, received_append, received_map (selfReceivers_nodup (hnd x ty' net') svc')]; rfl
      have hinc : (send s x svc' ty' net' v).2.filterMap (incoming q svc ty net p) =
          if x = q ∧ p = q ∧ ty' = ty ∧ net' = net ∧ SelfReceives ty svc svc' then [v] else [] := by
        rw [hu, List.filterMap_append, incoming_map, List.append_nil]
        simp only [List.filterMap_cons, List.filterMap_nil, incoming]
        split <;> rename_i h <;> split at h <;> simp_all
      refine r.step ?_ (by rw [hloc]) (by rw [hloc]; exact r.nodup) ?_ ?_
      · rw [hu]; simp
      · intro hm
        rw [hrec, hinc]
        by_cases h : x = q ∧ p = q ∧ ty' = ty ∧ net' = net ∧ SelfReceives ty svc svc'
        · rw [if_pos h]
          obtain ⟨rfl, rfl, rfl, rfl, h⟩ := h
          rw [if_pos ⟨rfl, rfl, rfl, rfl, (mem_selfReceivers _ _).2 ⟨hm, h⟩⟩]
        · rw [if_neg h, if_neg]
          rintro ⟨rfl, rfl, rfl, rfl, h'⟩
          exact h ⟨rfl, rfl, rfl, rfl, ((mem_selfReceivers _ _).1 h').2⟩
      · intro hm
        rw [hrec, if_neg]
        rintro ⟨rfl, rfl, rfl, rfl, h'⟩
        exact hm ((mem_selfReceivers _ _).1 h').1
  | deliver x y =>
      simp only [on]
      rcases deliver_cases s x y with h | ⟨w, ws, hc, ho, e⟩
      · rw [h, List.append_nil]; exact r
      · rw [e]
        cases w with
        | subscribe idx net' sd =>
            simp only [handle]
            obtain ⟨h1, l, h2⟩ := foldl_subscribe_facts y x idx net' sd q ty net allTypes (s.pop x y ws, [])
            rw [h2]
            refine r.still (by simp) (h1.trans rfl) ?_ ?_
            · simp only [received, List.nil_append, List.filterMap_map, List.filterMap_eq_nil_iff]; intro a _; rfl
            · simp only [List.nil_append, List.filterMap_map, List.filterMap_eq_nil_iff]; intro a _; rfl
        | data idx ty' v =>
            rw [handle_data_state]
            simp only [handle]
            split
            · rw [List.append_nil]; exact ⟨r.loc, r.nodup, r.notYet, r.since⟩
            · rename_i ty'' net'' hsome
              split
              · rename_i hty
                subst hty
                have hxy : x ≠ y := by rintro rfl; rw [g.self x] at ho; cases ho
                rw [show ∀ (o : Out V) (l : List (Out V)), o :: l = [o] ++ l from fun _ _ => rfl]
                have hrec := received_map (hnd y ty'' net'') q svc ty net p y ty'' net'' x v
                have hinc := incoming_map (s.link y ty'' net'').locals q svc ty net p y ty'' net'' x v
                refine r.step (by simp) Iff.rfl r.nodup ?_ ?_
                · intro hm
                  rw [received_append, List.filterMap_append]
                  erw [hrec, hinc]
                  have e1 : received q svc ty net p [Out.arrived y x ty'' net'' v] = [] := rfl
                  rw [e1, List.append_nil, List.nil_append]
                  simp only [List.filterMap_cons, List.filterMap_nil, incoming]
                  by_cases h : y = q ∧ x = p ∧ ty'' = ty ∧ net'' = net
                  · obtain ⟨rfl, rfl, rfl, rfl⟩ := h
                    simp [hm]
                  · rw [if_neg h, if_neg (fun h' => h ⟨h'.1, h'.2.2.2.1, h'.2.1, h'.2.2.1⟩)]
                · intro hm
                  rw [received_append]
                  erw [hrec]
                  rw [if_neg]
                  · rfl
                  · rintro ⟨rfl, rfl, rfl, -, h⟩
                    exact hm h
              · exact r.still (by simp) rfl rfl rfl
  | close x y =>
      simp only [on]
      by_cases h : s.status x y = .isOpen
      · have e2 : (close s x y).2 = [.closed x y] := by unfold close; rw [if_pos h]
        rw [e2]
        refine r.still (by simp) ?_ rfl rfl
        rw [close_link h]; split <;> rfl
      · have e : close s x y = (s, []) := by unfold close; rw [if_neg h]
        rw [e, List.append_nil]; exact r

theorem run_R (q svc : Nat) (ty : MsgType) (net : String) (p : Nat) (h : List (Event V)) : R q svc ty net p (run off h).1 (run off h).2 := by
  rw [← List.reverse_reverse h]
  induction h.reverse with
  | nil => exact init_R q svc ty net p
  | cons e h ih => rw [List.reverse_cons, run_append]; exact on_R (run_G _) (locals_nodup _) ih e

/-! ## Where values come from -/

/-- Everything under way and everything that has arrived was published on the same link. -/
structure P (s : State V) (t : List (Out V)) : Prop where
  last : ∀ p ty net v, (s.link p ty net).last = some v → v ∈ published p ty net t
  chan : ∀ p q idx ty net v, Wire.data idx ty v ∈ s.chan p q → (s.receivers q)[idx]? = some (ty, net) → v ∈ published p ty net t
  arr : ∀ q p ty net v, Out.arrived q p ty net v ∈ t → v ∈ published p ty net t
  garb : ∀ q p ty ty' net, Out.garbled q p ty ty' net ∈ t → serdesName ty = serdesName ty' ∧ ty ≠ ty'

theorem init_P : P (init off : State V) [] := ⟨by simp [init], by simp [init], by simp, by simp⟩

theorem P.step {s s' : State V} {t u : List (Out V)} (g : G s) (h : P s t)
    (hlast : ∀ p ty net v, (s'.link p ty net).last = some v → (s.link p ty net).last = some v ∨ v ∈ published p ty net u)
    (hrec : ∀ x, ∃ l, s'.receivers x = s.receivers x ++ l)
    (hchan : ∀ p q idx ty net v, Wire.data idx ty v ∈ s'.chan p q → (s'.receivers q)[idx]? = some (ty, net) →
      Wire.data idx ty v ∈ s.chan p q ∨ (s.link p ty net).last = some v ∨ v ∈ published p ty net u)
    (harr : ∀ q p ty net v, Out.arrived q p ty net v ∈ u → v ∈ published p ty net t)
    (hgarb : ∀ q p ty ty' net, Out.garbled q p ty ty' net ∈ u → serdesName ty = serdesName ty' ∧ ty ≠ ty') : P s' (t ++ u) := by
  refine ⟨?_, ?_, ?_, ?_⟩
  · intro p ty net v hv
    rw [published_append, List.mem_append]
    rcases hlast p ty net v hv with h' | h'
    · exact Or.inl (h.last p ty net v h')
    · exact Or.inr h'
  · intro p q idx ty net v hv hr
    rw [published_append, List.mem_append]
    rcases hchan p q idx ty net v hv hr with h' | h' | h'
    · left
      obtain ⟨net', t', hl, -⟩ := g.data p q idx ty v h'
      obtain ⟨l, e⟩ := hrec q
      rw [e, List.getElem?_append_left (List.getElem?_eq_some_iff.1 hl).1] at hr
      exact h.chan p q idx ty net v h' hr
    · exact Or.inl (h.last p ty net v h')
    · exact Or.inr h'
  · intro q p ty net v hv
    rw [published_append, List.mem_append]
    rcases List.mem_append.1 hv with hv | hv
    · exact Or.inl (h.arr q p ty net v hv)
    · exact Or.inl (harr q p ty net v hv)
  · intro q p ty ty' net hv
    rcases List.mem_append.1 hv with hv | hv
    · exact h.garb q p ty ty' net hv
    · exact hgarb q p ty ty' net hv

/-- Nothing of this changes. -/
theorem P.mono {s : State V} {t u : List (Out V)} (g : G s) (h : P s t) (harr : ∀ q p ty net v, Out.arrived q p ty net v ∈ u → v ∈ published p ty net t)
    (hgarb : ∀ q p ty ty' net, Out.garbled q p ty ty' net ∈ u → serdesName ty = serdesName ty' ∧ ty ≠ ty') : P s (t ++ u) :=
  h.step g (fun _ _ _ _ h => Or.inl h) (fun x => ⟨[], by simp⟩) (fun _ _ _ _ _ _ h _ => Or.inl h) harr hgarb

theorem subscribeStep_P {t : List (Out V)} {y x idx : Nat} {net' sd : String} (r : State V × List (Out V)) (z : MsgType) (h : P r.1 (t ++ r.2)) (g : G r.1)
    (hl : Listens r.1 x idx net' sd) : P (subscribeStep y x idx net' sd r z).1 (t ++ (subscribeStep y x idx net' sd r z).2) := by
  unfold subscribeStep
  split
  · rename_i hty
    dsimp only
    split
    · exact h
    · rw [← List.append_assoc]
      refine h.step g ?_ (fun x => ⟨[], by simp [State.push, State.setLink]⟩) ?_ (by simp) (by simp)
      · intro p ty net v hv
        left
        have hv' : ((r.1.setLink y z net' ((r.1.link y z net').addRemote (x, idx))).link p ty net).last = some v := hv
        rw [setLink_link] at hv'
        split at hv'
        · rename_i hh; obtain ⟨rfl, rfl, rfl⟩ := hh
          unfold Link.addRemote at hv'; split at hv' <;> exact hv'
        · exact hv'
      · intro p q i ty net v hv hr
        rw [push_chan] at hv
        rcases List.mem_append.1 hv with hv2 | hv2
        · exact Or.inl hv2
        · right; left
          split at hv2
          · rename_i hh
            obtain ⟨rfl, rfl⟩ := hh
            simp only [List.mem_map] at hv2
            obtain ⟨v', hv', e⟩ := hv2
            cases e
            obtain ⟨t'', h1, -⟩ := hl
            have hr' : (r.1.receivers q)[idx]? = some (z, net) := hr
            rw [h1] at hr'
            simp at hr'
            obtain ⟨rfl, rfl⟩ := hr'
            unfold Link.replay at hv'
            split at hv'
            · simpa using hv'
            · cases hv'
          · cases hv2
  · exact h

theorem on_P {s : State V} {t : List (Out V)} (g : G s) (h : P s t) (e : Event V) : P (on s e).1 (t ++ (on s e).2) := by
  cases e with
  | register x ty' net' svc' =>
      obtain ⟨h1, h2, h3, h4⟩ := register_receivers s x ty' net' svc'
      refine h.step g ?_ h1 ?_ (by simp [on]) (by simp [on])
      · intro p ty net v hv
        left
        simp only [on] at hv
        rw [h2] at hv
        split at hv
        · rename_i hh; obtain ⟨rfl, rfl, rfl⟩ := hh
          rw [(addLocal_remotes _ _).2.1] at hv; exact hv
        · exact hv
      · intro p q idx ty net v hv _
        left
        obtain ⟨n, hn⟩ := h4 p q
        simp only [on] at hv
        rw [hn] at hv
        rcases List.mem_append.1 hv with hv | hv
        · exact hv
        · have := List.eq_of_mem_replicate hv; cases this
  | connect x y =>
      simp only [on, connect]
      split
      · exact h.step g (fun _ _ _ _ h => Or.inl h) (fun x => ⟨[], by simp⟩) (fun _ _ _ _ _ _ h _ => Or.inl h) (by simp) (by simp)
      · exact h.mono g (by simp) (by simp)
  | announce x y =>
      simp only [on]
      split
      · refine h.step g (fun _ _ _ _ h => Or.inl h) (fun x => ⟨[], by simp [State.push]⟩) ?_ (by simp) (by simp)
        intro p q idx ty net v hv _
        left
        rw [push_chan] at hv
        rcases List.mem_append.1 hv with hv2 | hv2
        · exact hv2
        · split at hv2
          · obtain ⟨_, _, _, e, -⟩ := mem_subscriptions hv2; cases e
          · cases hv2
      · exact h.mono g (by simp) (by simp)
  | send x svc' ty' net' v =>
      simp only [on]
      obtain ⟨f1, f2, f3, f4, f5⟩ := send_facts s x svc' ty' net' v
      have hu : (send s x svc' ty' net' v).2 = [.published x svc' ty' net' v] ++ ((s.link x ty' net').selfReceivers ty' svc').map (fun r => .received x r ty' net' x v) := rfl
      have hpub : v ∈ published x ty' net' (send s x svc' ty' net' v).2 := by
        rw [hu, published_append, List.mem_append]; left; simp [published]
      refine h.step g ?_ (fun x => ⟨[], by rw [f3]; simp⟩) ?_ (by rw [hu]; simp) (by rw [hu]; simp)
      · intro p ty net v' hv
        rw [f1] at hv
        split at hv
        · rename_i hh
          obtain ⟨rfl, rfl, rfl⟩ := hh
          unfold Link.save at hv
          split at hv
          · simp at hv; subst hv; exact Or.inr hpub
          · exact Or.inl hv
        · exact Or.inl hv
      · intro p q idx ty net v' hv hr
        rw [f5] at hv
        rcases List.mem_append.1 hv with hv2 | hv2
        · exact Or.inl hv2
        · right; right
          split at hv2
          · rename_i hx
            subst hx
            simp only [List.mem_map, List.mem_filter] at hv2
            obtain ⟨⟨r1, r2⟩, ⟨hm, he⟩, e⟩ := hv2
            cases e
            simp at he
            subst he
            obtain ⟨t'', h1, -⟩ := (g.rem _ _ _ _ _ hm).1
            rw [f3, h1] at hr
            simp at hr
            obtain ⟨rfl, rfl⟩ := hr
            exact hpub
          · cases hv2
  | deliver x y =>
      simp only [on]
      rcases deliver_cases s x y with h' | ⟨w, ws, hc, ho, e⟩
      · rw [h', List.append_nil]; exact h
      · rw [e]
        have g' := pop_G g hc
        have hsub : ∀ p q w, w ∈ (s.pop x y ws).chan p q → w ∈ s.chan p q := by
          intro p q w' hw
          simp only [State.pop] at hw
          split at hw
          · rename_i hh; obtain ⟨rfl, rfl⟩ := hh; rw [hc]; exact List.mem_cons_of_mem _ hw
          · exact hw
        have h0 : P (s.pop x y ws) (t ++ []) :=
          h.step g (fun _ _ _ _ h => Or.inl h) (fun x => ⟨[], by simp [State.pop]⟩) (fun p q idx ty net v h _ => Or.inl (hsub _ _ _ h)) (by simp) (by simp)
        cases w with
        | subscribe idx net' sd =>
            exact (foldl_subscribe (fun r => P r.1 (t ++ r.2)) allTypes (fun r z h g _ hl => subscribeStep_P r z h g hl)
              (s.pop x y ws, []) h0 g' ho (g.sub x y idx net' sd (by rw [hc]; simp))).1
        | data idx ty' v =>
            rw [handle_data_state]
            have hmem : Wire.data idx ty' v ∈ s.chan x y := by rw [hc]; simp
            rw [List.append_nil] at h0
            refine h0.mono g' ?_ ?_
            · intro q p ty net v' hv
              simp only [handle] at hv
              split at hv
              · cases hv
              · rename_i ty'' net'' hsome
                split at hv
                · rename_i hty
                  subst hty
                  rcases List.mem_cons.1 hv with hv | hv
                  · cases hv
                    exact h.chan _ _ idx _ _ _ hmem hsome
                  · simp at hv
                · simp at hv
            · intro q p ty ty'' net hv
              simp only [handle] at hv
              split at hv
              · cases hv
              · rename_i ty3 net3 hsome
                split at hv
                · simp at hv
                · rename_i hne
                  simp at hv
                  obtain ⟨rfl, rfl, rfl, rfl, rfl⟩ := hv
                  obtain ⟨n, t4, h1, h2⟩ := g.data _ _ _ _ _ hmem
                  have hsome' : (s.receivers q)[idx]? = some (ty, net) := hsome
                  rw [h1] at hsome'
                  simp at hsome'
                  exact ⟨by rw [← hsome'.1]; exact h2, hne⟩
  | close x y =>
      simp only [on]
      by_cases ho : s.status x y = .isOpen
      · have e2 : (close s x y).2 = [.closed x y] := by unfold close; rw [if_pos ho]
        rw [e2]
        refine h.step g ?_ ?_ ?_ (by simp) (by simp)
        · intro p ty net v hv
          left
          rw [close_link ho] at hv
          split at hv <;> exact hv
        · intro x; exact ⟨[], by unfold close; rw [if_pos ho]; simp⟩
        · intro p q idx ty net v hv _
          left
          have : (close s x y).1.chan = s.chan := by unfold close; rw [if_pos ho]
          rw [this] at hv; exact hv
      · have e : close s x y = (s, []) := by unfold close; rw [if_neg ho]
        rw [e, List.append_nil]; exact h

theorem run_P (h : List (Event V)) : P (run off h).1 (run off h).2 := by
  rw [← List.reverse_reverse h]
  induction h.reverse with
  | nil => exact init_P
  | cons e h ih => rw [List.reverse_cons, run_append]; exact on_P (run_G _) ih e

end SilKit.Links
