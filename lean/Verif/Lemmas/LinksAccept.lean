import Verif.Lemmas.LinksReceive
/-! # Every subscription is accepted -/
namespace SilKit.Links
open Spec SilKit.Util

variable {V : Type} {off : Nat → MsgType → String → Bool}

theorem foldl_pushStep_mem (p : Nat) (w : Wire V) (ps : List Nat) (s : State V) {b : Nat} (h : b ∈ ps) : w ∈ (ps.foldl (pushStep p w) s).chan p b := by
  induction ps generalizing s with
  | nil => cases h
  | cons q ps ih =>
      rw [List.foldl_cons]
      rcases List.mem_cons.1 h with rfl | h
      · obtain ⟨n, hn, -⟩ := (foldl_pushStep p w ps (pushStep p w s b)).2 p b
        rw [hn, show (pushStep p w s b).chan p b = _ from push_chan s p b [w] p b]
        simp
      · exact ih _ h

theorem subscribeStep_peers (q p idx : Nat) (net sd : String) (r : State V × List (Out V)) (ty : MsgType) :
    (subscribeStep q p idx net sd r ty).1.peers = r.1.peers := by
  unfold subscribeStep
  split
  · dsimp only; split <;> rfl
  · rfl

/-- What the peers of a participant and its open connections have to do with each other. -/
def PeersOk (s : State V) : Prop := ∀ x y, s.status x y = .isOpen → y ∈ s.peers x

theorem on_peers {s : State V} (h : PeersOk s) (e : Event V) : PeersOk (on s e).1 := by
  cases e with
  | register x ty' net' svc' =>
      intro a b hab
      simp only [on] at hab ⊢
      rw [(register_receivers s x ty' net' svc').2.2.1] at hab
      have hp : (register s x ty' net' svc').peers = s.peers := by
        unfold register
        split
        · rfl
        · exact (foldl_pushStep _ _ _ _).1.2.2.2.2
      rw [hp]; exact h a b hab
  | connect x y =>
      intro a b hab
      simp only [on, connect] at hab ⊢
      split
      · rename_i hc
        rw [if_pos hc] at hab
        dsimp only at hab ⊢
        split at hab
        · rename_i hh
          rcases hh with ⟨rfl, rfl⟩ | ⟨rfl, rfl⟩
          · simp
          · have : ¬ a = b := fun h => hc.1 h.symm
            simp [this]
        · have := h a b hab
          split
          · exact List.mem_append_left _ this
          · split
            · exact List.mem_append_left _ this
            · exact this
      · rename_i hc
        rw [if_neg hc] at hab
        exact h a b hab
  | announce x y => simp only [on]; split <;> exact h
  | send x svc' ty' net' v =>
      intro a b hab
      simp only [on] at hab ⊢
      have f := foldl_sendStep x ty' v (s.link x ty' net').remotes (s.setLink x ty' net' ((s.link x ty' net').save ty' v))
      rw [(send_facts s x svc' ty' net' v).2.2.2.1] at hab
      have hp : (send s x svc' ty' net' v).1.peers = s.peers := f.1.2.2.2.2
      rw [hp]; exact h a b hab
  | deliver x y =>
      simp only [on]
      rcases deliver_cases s x y with h' | ⟨w, ws, hc, ho, e⟩
      · rw [h']; exact h
      · rw [e]
        cases w with
        | data idx ty' v => rw [handle_data_state]; exact h
        | subscribe idx net' sd =>
            simp only [handle]
            have key : ∀ (l : List MsgType) (r : State V × List (Out V)), PeersOk r.1 → PeersOk (l.foldl (subscribeStep y x idx net' sd) r).1 := by
              intro l
              induction l with
              | nil => intro r h; exact h
              | cons z l ih =>
                  intro r hr
                  refine ih _ ?_
                  intro a b hab
                  rw [(subscribeStep_keeps y x idx net' sd r z).1] at hab
                  rw [subscribeStep_peers]
                  exact hr a b hab
            exact key allTypes _ h
  | close x y =>
      intro a b hab
      simp only [on, close] at hab ⊢
      split
      · rename_i hc
        rw [if_pos hc] at hab
        dsimp only at hab ⊢
        split at hab
        · cases hab
        · rename_i hn
          have := h a b hab
          split
          · rename_i hax
            subst hax
            have hby : b ≠ y := fun hb => hn ⟨rfl, hb⟩
            simp [this, hby]
          · exact this
      · rename_i hc
        rw [if_neg hc] at hab
        exact h a b hab

theorem run_peers (h : List (Event V)) : PeersOk (run off h).1 := by
  rw [← List.reverse_reverse h]
  induction h.reverse with
  | nil => intro x y hx; simp [run, init] at hx
  | cons e h ih => rw [List.reverse_cons, run_append]; exact on_peers ih e

/-! ## Requests are under way or accepted -/

/-- Participant `q` asks `p` for the link: every receiver for it is on its way or has been accepted. -/
structure Asked (p q : Nat) (ty : MsgType) (net : String) (s : State V) (t : List (Out V)) : Prop where
  met : s.status q p ≠ .never
  ask : s.status q p = .isOpen → ∀ idx, (s.receivers q)[idx]? = some (ty, net) →
    Wire.subscribe idx net (serdesName ty) ∈ s.chan q p ∨ Out.accepted p q ty net ∈ t

theorem Asked.step {p q : Nat} {ty : MsgType} {net : String} {s s' : State V} {t u : List (Out V)} (k : Asked p q ty net s t)
    (hst : s'.status q p = s.status q p ∨ s'.status q p = .closed)
    (hrec : ∀ idx : Nat, (s'.receivers q)[idx]? = some (ty, net) → (s.receivers q)[idx]? = some (ty, net))
    (hch : ∀ idx, Wire.subscribe idx net (serdesName ty) ∈ s.chan q p → Wire.subscribe idx net (serdesName ty) ∈ s'.chan q p) :
    Asked p q ty net s' (t ++ u) := by
  refine ⟨?_, ?_⟩
  · rcases hst with h | h <;> rw [h]
    · exact k.met
    · simp
  · intro ho idx hi
    rcases hst with h | h <;> rw [h] at ho
    · rcases k.ask ho idx (hrec idx hi) with h | h
      · exact Or.inl (hch idx h)
      · exact Or.inr (List.mem_append_left _ h)
    · cases ho

theorem foldl_subscribe_mem {y x idx : Nat} {net' : String} {ty : MsgType} (types : List MsgType) (r : State V × List (Out V))
    (h : ty ∈ types ∨ (x, idx) ∈ (r.1.link y ty net').remotes) :
    (x, idx) ∈ ((types.foldl (subscribeStep y x idx net' (serdesName ty)) r).1.link y ty net').remotes := by
  induction types generalizing r with
  | nil => simpa using h
  | cons z types ih =>
      rw [List.foldl_cons]
      refine ih _ ?_
      by_cases hz : ty = z ∨ (x, idx) ∈ (r.1.link y ty net').remotes
      · right
        unfold subscribeStep
        split
        · dsimp only
          split
          · rename_i hc
            rcases hz with rfl | hz
            · simpa using hc
            · exact hz
          · show (x, idx) ∈ ((r.1.setLink y z net' _).link y ty net').remotes
            rw [setLink_link]
            split
            · rename_i hh
              obtain ⟨-, rfl, -⟩ := hh
              unfold Link.addRemote
              split
              · rename_i hc; simpa using hc
              · simp
            · rename_i hh
              rcases hz with rfl | hz
              · exact absurd ⟨rfl, rfl, rfl⟩ hh
              · exact hz
        · rename_i hne
          rcases hz with rfl | hz
          · exact absurd rfl hne
          · exact hz
      · rw [not_or] at hz
        rcases h with h | h
        · rcases List.mem_cons.1 h with h | h
          · exact absurd h hz.1
          · exact Or.inl h
        · exact absurd h hz.2

theorem foldl_subscribe_chan (q p idx : Nat) (net' sd : String) (a b : Nat) (w : Wire V) (types : List MsgType) (r : State V × List (Out V))
    (h : w ∈ r.1.chan a b) : w ∈ ((types.foldl (subscribeStep q p idx net' sd) r).1).chan a b := by
  induction types generalizing r with
  | nil => exact h
  | cons z types ih =>
      rw [List.foldl_cons]
      refine ih _ ?_
      unfold subscribeStep
      split
      · dsimp only
        split
        · exact h
        · show w ∈ (State.push _ q p _).chan a b
          rw [push_chan]
          exact List.mem_append_left _ h
      · exact h

theorem foldl_subscribe_keeps (q p idx : Nat) (net' sd : String) (types : List MsgType) (r : State V × List (Out V)) :
    ((types.foldl (subscribeStep q p idx net' sd) r).1).status = r.1.status ∧ ((types.foldl (subscribeStep q p idx net' sd) r).1).receivers = r.1.receivers := by
  induction types generalizing r with
  | nil => exact ⟨rfl, rfl⟩
  | cons z types ih =>
      have k := subscribeStep_keeps q p idx net' sd r z
      have := ih (subscribeStep q p idx net' sd r z)
      exact ⟨this.1.trans k.1, this.2.trans k.2⟩

theorem on_Asked {p q : Nat} {ty : MsgType} {net : String} {s : State V} {t : List (Out V)} (hn : NamedUniquely ty) (g : G s) (hp : PeersOk s)
    (f : F off p q ty net s t) (k : Asked p q ty net s t) (e : Event V) : Asked p q ty net (on s e).1 (t ++ (on s e).2) := by
  have f' := on_F hn g f e
  cases e with
  | register x ty' net' svc' =>
      simp only [on]
      obtain ⟨h1, h2, h3, h4⟩ := register_receivers s x ty' net' svc'
      refine ⟨by rw [h3]; exact k.met, ?_⟩
      intro ho idx hi
      rw [h3] at ho
      obtain ⟨n, hn4⟩ := h4 q p
      by_cases hold : (s.receivers q)[idx]? = some (ty, net)
      · rcases k.ask ho idx hold with h | h
        · exact Or.inl (by rw [hn4]; exact List.mem_append_left _ h)
        · exact Or.inr (List.mem_append_left _ h)
      · left
        unfold register at hi ⊢
        split at hi
        · exact absurd hi hold
        · rename_i hc
          rw [if_neg hc]
          have fp := foldl_pushStep x (.subscribe (s.receivers x).length net' (serdesName ty')) (s.peers x)
            { s.setLink x ty' net' ((s.link x ty' net').addLocal svc') with
              ids := fun y => if y = x then s.ids y ++ [(net', serdesName ty')] else s.ids y
              receivers := fun y => if y = x then s.receivers y ++ [(ty', net')] else s.receivers y }
          dsimp only at fp hi ⊢
          rw [fp.1.2.2.1] at hi
          dsimp only at hi
          split at hi
          · rename_i hq
            subst hq
            rw [List.getElem?_append] at hi
            split at hi
            · exact absurd hi hold
            · rename_i hlen
              have hidx : idx = (s.receivers q).length := by
                have := (List.getElem?_eq_some_iff.1 hi).1
                simp at this; omega
              subst hidx
              simp at hi
              obtain ⟨rfl, rfl⟩ := hi
              exact foldl_pushStep_mem q _ (s.peers q) _ (hp q p ho)
          · exact absurd hi hold
  | connect x y =>
      simp only [on, connect]
      split
      · rename_i hc
        refine k.step ?_ (fun _ h => h) (fun _ h => h)
        left
        dsimp only
        rw [if_neg]
        rintro (⟨rfl, rfl⟩ | ⟨rfl, rfl⟩)
        · exact k.met hc.2.1
        · exact k.met hc.2.2
      · exact k.step (Or.inl rfl) (fun _ h => h) (fun _ h => h)
  | announce x y =>
      simp only [on]
      split
      · exact k.step (Or.inl rfl) (fun _ h => h) (fun _ h => by rw [push_chan]; exact List.mem_append_left _ h)
      · exact k.step (Or.inl rfl) (fun _ h => h) (fun _ h => h)
  | send x svc' ty' net' v =>
      simp only [on]
      obtain ⟨f1, f2, f3, f4, f5⟩ := send_facts s x svc' ty' net' v
      exact k.step (Or.inl (by rw [f4])) (fun _ h => by rw [f3] at h; exact h) (fun _ h => by rw [f5]; exact List.mem_append_left _ h)
  | deliver x y =>
      simp only [on] at f' ⊢
      rcases deliver_cases s x y with h' | ⟨w, ws, hc, ho, e⟩
      · rw [h', List.append_nil]; exact k
      · rw [e] at f' ⊢
        have hpop : ∀ w', w' ∈ s.chan q p → w' ∈ (s.pop x y ws).chan q p ∨ (x = q ∧ y = p ∧ w' = w) := by
          intro w' hw
          simp only [State.pop]
          split
          · rename_i hh
            obtain ⟨rfl, rfl⟩ := hh
            rw [hc] at hw
            rcases List.mem_cons.1 hw with hw | hw
            · exact Or.inr ⟨rfl, rfl, hw⟩
            · exact Or.inl hw
          · exact Or.inl hw
        cases w with
        | data idx ty' v =>
            rw [handle_data_state]
            refine k.step (Or.inl rfl) (fun _ h => h) ?_
            intro i hi
            rcases hpop _ hi with h | ⟨-, -, h⟩
            · exact h
            · cases h
        | subscribe idx net' sd =>
            simp only [handle] at f' ⊢
            have keep := foldl_subscribe_keeps y x idx net' sd allTypes (s.pop x y ws, [])
            refine ⟨by rw [keep.1]; exact k.met, ?_⟩
            intro ho' i hi
            rw [keep.1] at ho'
            rw [keep.2] at hi
            rcases k.ask ho' i hi with h | h
            · rcases hpop _ h with h2 | ⟨rfl, rfl, h2⟩
              · exact Or.inl (foldl_subscribe_chan _ _ _ _ _ _ _ _ _ _ h2)
              · right
                injection h2 with h3 h4 h5
                subst h3; subst h4; subst h5
                have hm := foldl_subscribe_mem (y := y) (x := x) (idx := i) (net' := net) (ty := ty) allTypes (s.pop x y ws, []) (Or.inl (mem_allTypes ty))
                refine Classical.byContradiction (fun hna => ?_)
                exact (f'.notYet hna).2.2 ⟨i, hm⟩
            · exact Or.inr (List.mem_append_left _ h)
  | close x y =>
      simp only [on, close]
      split
      · rename_i hc
        refine k.step ?_ (fun _ h => h) (fun _ h => h)
        dsimp only
        split
        · exact Or.inr rfl
        · exact Or.inl rfl
      · exact k.step (Or.inl rfl) (fun _ h => h) (fun _ h => h)

theorem run_append_list (a b : List (Event V)) : run off (a ++ b) = b.foldl (fun r e => ((on r.1 e).1, r.2 ++ (on r.1 e).2)) (run off a) := by
  unfold run; rw [List.foldl_append]

/-- The list of subscribers that `q` sends to `p` covers everything. -/
theorem announce_Asked {p q : Nat} {ty : MsgType} {net : String} {s : State V} {t : List (Out V)} (ho : s.status q p = .isOpen) :
    Asked p q ty net (on s (.announce q p)).1 (t ++ (on s (.announce q p)).2) := by
  simp only [on, if_pos ho]
  refine ⟨by rw [show (s.push q p (subscriptions s q)).status q p = _ from ho]; simp, ?_⟩
  intro _ idx hi
  left
  rw [push_chan]
  refine List.mem_append_right _ ?_
  rw [if_pos ⟨rfl, rfl⟩, subscriptions, List.mem_mapIdx]
  have hi' : (s.receivers q)[idx]? = some (ty, net) := hi
  obtain ⟨hlt, e⟩ := List.getElem?_eq_some_iff.1 hi'
  exact ⟨idx, hlt, by rw [e]⟩

theorem run_Asked {p q : Nat} {ty : MsgType} {net : String} (hn : NamedUniquely ty) (h1 h2 : List (Event V))
    (ho : (run off h1).1.status q p = .isOpen) :
    Asked p q ty net (run off (h1 ++ .announce q p :: h2)).1 (run off (h1 ++ .announce q p :: h2)).2 := by
  rw [← List.reverse_reverse h2]
  induction h2.reverse with
  | nil =>
      rw [List.reverse_nil, run_append]
      exact announce_Asked ho
  | cons e h ih =>
      rw [List.reverse_cons, ← List.cons_append, ← List.append_assoc, run_append]
      exact on_Asked hn (run_G _) (run_peers _) (run_F hn _) ih e

/-! ## A service that receives has a receiver -/

theorem register_names (s : State V) (x : Nat) (ty' : MsgType) (net' : String) (svc' : Nat) : (net', serdesName ty') ∈ (register s x ty' net' svc').ids x := by
  unfold register
  split
  · rename_i hc; simpa [State.setLink] using hc
  · have := (foldl_pushStep x (.subscribe (s.receivers x).length net' (serdesName ty')) (s.peers x)
      { s.setLink x ty' net' ((s.link x ty' net').addLocal svc') with
        ids := fun y => if y = x then s.ids y ++ [(net', serdesName ty')] else s.ids y
        receivers := fun y => if y = x then s.receivers y ++ [(ty', net')] else s.receivers y }).1.2.1
    dsimp only
    rw [this]
    simp

theorem on_ids (s : State V) (e : Event V) (x : Nat) (a : String × String) (h : a ∈ s.ids x) : a ∈ (on s e).1.ids x := by
  cases e with
  | register y ty' net' svc' =>
      simp only [on]
      unfold register
      split
      · exact h
      · have := (foldl_pushStep y (.subscribe (s.receivers y).length net' (serdesName ty')) (s.peers y)
          { s.setLink y ty' net' ((s.link y ty' net').addLocal svc') with
            ids := fun z => if z = y then s.ids z ++ [(net', serdesName ty')] else s.ids z
            receivers := fun z => if z = y then s.receivers z ++ [(ty', net')] else s.receivers z }).1.2.1
        dsimp only
        rw [this]
        dsimp only
        split
        · exact List.mem_append_left _ h
        · exact h
  | connect y z => simp only [on, connect]; split <;> exact h
  | announce y z => simp only [on]; split <;> exact h
  | send y svc' ty' net' v => simp only [on]; rw [(send_facts s y svc' ty' net' v).2.1]; exact h
  | deliver y z =>
      simp only [on]
      rcases deliver_cases s y z with h' | ⟨w, ws, hc, ho, e⟩
      · rw [h']; exact h
      · rw [e]
        cases w with
        | data idx ty' v => rw [handle_data_state]; exact h
        | subscribe idx net' sd =>
            simp only [handle]
            have key : ∀ (l : List MsgType) (r : State V × List (Out V)), r.1.ids = s.ids → (l.foldl (subscribeStep z y idx net' sd) r).1.ids = s.ids := by
              intro l
              induction l with
              | nil => intro r h; exact h
              | cons c l ih =>
                  intro r hr
                  refine ih _ ?_
                  unfold subscribeStep
                  split
                  · dsimp only; split <;> exact hr
                  · exact hr
            rw [key allTypes _ rfl]; exact h
  | close y z => simp only [on, close]; split <;> exact h

theorem run_registered_ids {q svc : Nat} {ty : MsgType} {net : String} (h : List (Event V)) (hr : Out.registered q ty net svc ∈ (run off h).2) :
    (net, serdesName ty) ∈ (run off h).1.ids q := by
  revert hr
  rw [← List.reverse_reverse h]
  induction h.reverse with
  | nil => intro hr; simp [run] at hr
  | cons e h ih =>
      rw [List.reverse_cons, run_append]
      intro hr
      rcases List.mem_append.1 hr with hr | hr
      · exact on_ids _ _ _ _ (ih hr)
      · cases e with
        | register x ty' net' svc' =>
            simp only [on, List.mem_singleton] at hr
            cases hr
            exact register_names _ _ _ _ _
        | connect x y => simp [on] at hr
        | announce x y => simp [on] at hr
        | send x svc' ty' net' v => simp [on, send] at hr
        | deliver x y =>
            simp only [on] at hr
            rcases deliver_cases (run off h.reverse).1 x y with h' | ⟨w, ws, hc, ho, e⟩
            · rw [h'] at hr; cases hr
            · rw [e] at hr
              cases w with
              | data idx ty' v =>
                  simp only [handle] at hr
                  split at hr
                  · cases hr
                  · split at hr <;> simp at hr
              | subscribe idx net' sd =>
                  simp only [handle] at hr
                  obtain ⟨-, l, h2⟩ := foldl_subscribe_facts y x idx net' sd q ty net allTypes ((run off h.reverse).1.pop x y ws, [])
                  rw [h2] at hr
                  simp at hr
        | close x y => simp only [on, close] at hr; split at hr <;> simp at hr

theorem registered_receiver {q svc : Nat} {ty : MsgType} {net : String} (hn : NamedUniquely ty) (h : List (Event V))
    (hr : Out.registered q ty net svc ∈ (run off h).2) : ∃ idx : Nat, ((run off h).1.receivers q)[idx]? = some (ty, net) := by
  have hm := run_registered_ids h hr
  rw [(run_G h).ids q, List.mem_map] at hm
  obtain ⟨⟨ty', net'⟩, hm, e⟩ := hm
  simp at e
  obtain ⟨rfl, e⟩ := e
  have := hn _ e
  subst this
  obtain ⟨i, hi⟩ := List.getElem?_of_mem hm
  exact ⟨i, hi⟩

/-! ## Outputs of single events -/

/-- A registration is the only output of its event. -/
theorem registered_boundary {q svc : Nat} {ty : MsgType} {net : String} (h : List (Event V)) :
    ∀ a b, (run off h).2 = a ++ .registered q ty net svc :: b → ∃ h1, (run off h1).2 = a := by
  rw [← List.reverse_reverse h]
  induction h.reverse with
  | nil => intro a b e; simp [run] at e
  | cons e h ih =>
      intro a b e1
      rw [List.reverse_cons, run_append] at e1
      rcases split_append e1 with ⟨b', e2, -⟩ | ⟨a', e2, e3⟩
      · exact ih a b' e2
      · refine ⟨h.reverse, ?_⟩
        have hm : Out.registered q ty net svc ∈ (on (run off h.reverse).1 e).2 := by rw [e3]; simp
        cases e with
        | register x ty' net' svc' =>
            simp only [on] at e3
            cases a' with
            | nil => rw [e2, List.append_nil]
            | cons o a' => simp at e3
        | connect x y => simp [on] at hm
        | announce x y => simp [on] at hm
        | send x svc' ty' net' v => simp [on, send] at hm
        | deliver x y =>
            simp only [on] at hm
            rcases deliver_cases (run off h.reverse).1 x y with h' | ⟨w, ws, hc, ho, e⟩
            · rw [h'] at hm; cases hm
            · rw [e] at hm
              cases w with
              | data idx ty' v =>
                  simp only [handle] at hm
                  split at hm
                  · cases hm
                  · split at hm <;> simp at hm
              | subscribe idx net' sd =>
                  simp only [handle] at hm
                  obtain ⟨-, l, h2⟩ := foldl_subscribe_facts y x idx net' sd q ty net allTypes ((run off h.reverse).1.pop x y ws, [])
                  rw [h2] at hm
                  simp at hm
        | close x y => simp only [on, close] at hm; split at hm <;> simp at hm

/-- Nothing arrives from oneself. -/
theorem no_self_arrival {p : Nat} {ty : MsgType} {net : String} {v : V} (h : List (Event V)) : Out.arrived p p ty net v ∉ (run off h).2 := by
  rw [← List.reverse_reverse h]
  induction h.reverse with
  | nil => simp [run]
  | cons e h ih =>
      rw [List.reverse_cons, run_append]
      intro hm
      rcases List.mem_append.1 hm with hm | hm
      · exact ih hm
      · cases e with
        | register x ty' net' svc' => simp [on] at hm
        | connect x y => simp [on] at hm
        | announce x y => simp [on] at hm
        | send x svc' ty' net' v => simp [on, send] at hm
        | deliver x y =>
            simp only [on] at hm
            rcases deliver_cases (run off h.reverse).1 x y with h' | ⟨w, ws, hc, ho, e⟩
            · rw [h'] at hm; cases hm
            · rw [e] at hm
              cases w with
              | data idx ty' v =>
                  simp only [handle] at hm
                  split at hm
                  · cases hm
                  · split at hm
                    · rcases List.mem_cons.1 hm with hm | hm
                      · injection hm with h1 h2
                        subst h1; subst h2
                        rw [(run_G _).self] at ho; cases ho
                      · simp at hm
                    · simp at hm
              | subscribe idx net' sd =>
                  simp only [handle] at hm
                  obtain ⟨-, l, h2⟩ := foldl_subscribe_facts y x idx net' sd p ty net allTypes ((run off h.reverse).1.pop x y ws, [])
                  rw [h2] at hm
                  simp at hm
        | close x y => simp only [on, close] at hm; split at hm <;> simp at hm

theorem subscribeStep_count [DecidableEq V] {p q : Nat} {ty : MsgType} {net : String} {t : List (Out V)} {y x idx : Nat} {net' sd : String}
    (r : State V × List (Out V)) (ty' : MsgType) (f : F off p q ty net r.1 (t ++ r.2)) (g : G r.1) (ho : r.1.status y x = .isOpen)
    (hl : Listens r.1 x idx net' sd) (hc : (t ++ r.2).count (.accepted p q ty net) ≤ 1) :
    (t ++ (subscribeStep y x idx net' sd r ty').2).count (.accepted p q ty net) ≤ 1 := by
  unfold subscribeStep
  split
  · rename_i hty
    dsimp only
    split
    · exact hc
    · rename_i hc2
      have hc' : (x, idx) ∉ (r.1.link y ty' net').remotes := by simpa using hc2
      rw [← List.append_assoc, List.count_append]
      by_cases hfoc : (y = p ∧ x = q) ∧ ty' = ty ∧ net' = net
      · obtain ⟨⟨rfl, rfl⟩, rfl, rfl⟩ := hfoc
        have hnacc : Out.accepted y x ty' net' ∉ t ++ r.2 := by
          intro hm
          obtain ⟨a, b, e⟩ := List.append_of_mem hm
          rcases (f.since a b e).2.2.2 with ⟨i, hi⟩ | h
          · have := g.unique (g.rem _ _ _ _ _ hi).1 (hty ▸ hl)
            subst this
            exact hc' hi
          · rw [ho] at h; cases h
        rw [List.count_eq_zero.2 hnacc]
        simp
      · have : (Out.accepted p q ty net : Out V) ∉ [Out.accepted y x ty' net'] := by
          simp; rintro rfl rfl rfl rfl; exact hfoc ⟨⟨rfl, rfl⟩, rfl, rfl⟩
        rw [List.count_eq_zero.2 this]; exact hc
  · exact hc

theorem run_count [DecidableEq V] {p q : Nat} {ty : MsgType} {net : String} (hn : NamedUniquely ty) (h : List (Event V)) : (run off h).2.count (.accepted p q ty net) ≤ 1 := by
  rw [← List.reverse_reverse h]
  induction h.reverse with
  | nil => simp [run]
  | cons e h ih =>
      rw [List.reverse_cons, run_append]
      have hno : Out.accepted p q ty net ∉ (on (run off h.reverse).1 e).2 →
          ((run off h.reverse).2 ++ (on (run off h.reverse).1 e).2).count (.accepted p q ty net) ≤ 1 := by
        intro hno; rw [List.count_append, List.count_eq_zero.2 hno]; exact ih
      cases e with
      | register x ty' net' svc' => exact hno (by simp [on])
      | connect x y => exact hno (by simp [on])
      | announce x y => exact hno (by simp [on])
      | send x svc' ty' net' v => exact hno (by simp [on, send])
      | close x y => refine hno ?_; simp only [on, close]; split <;> simp
      | deliver x y =>
          simp only [on] at hno ⊢
          rcases deliver_cases (run off h.reverse).1 x y with h' | ⟨w, ws, hc, ho, e⟩
          · refine hno ?_; rw [h']; simp
          · rw [e] at hno ⊢
            have g := run_G (off := off) h.reverse
            cases w with
            | data idx ty' v =>
                refine hno ?_
                simp only [handle]
                split
                · simp
                · split <;> simp
            | subscribe idx net' sd =>
                simp only [handle]
                have f0 : F off p q ty net ((run off h.reverse).1.pop x y ws) ((run off h.reverse).2 ++ []) := pop_F (run_F hn _) hc
                exact ((foldl_subscribe (fun r => F off p q ty net r.1 ((run off h.reverse).2 ++ r.2) ∧ ((run off h.reverse).2 ++ r.2).count (.accepted p q ty net) ≤ 1) allTypes
                  (fun r z hr g ho hl => ⟨subscribeStep_F hn r z hr.1 g ho hl, subscribeStep_count r z hr.1 g ho hl hr.2⟩)
                  ((run off h.reverse).1.pop x y ws, []) ⟨f0, by rw [List.append_nil]; exact ih⟩ (pop_G g hc) ho
                  (g.sub x y idx net' sd (by rw [hc]; simp))).1).2

end SilKit.Links
