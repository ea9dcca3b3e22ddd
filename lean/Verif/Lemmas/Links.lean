import Verif.Spec.Links
import Verif.Lemmas.Util
/-! # Invariants of message links -/
namespace SilKit.Links
open Spec SilKit.Util

variable {V : Type} {off : Nat → MsgType → String → Bool}

theorem run_append (h : List (Event V)) (e : Event V) :
    run off (h ++ [e]) = ((on (run off h).1 e).1, (run off h).2 ++ (on (run off h).1 e).2) := by
  simp [run, List.foldl_append]

theorem mem_allTypes (ty : MsgType) : ty ∈ allTypes := by cases ty <;> decide

/-! ## Pushing to channels -/

theorem push_chan (s : State V) (p q : Nat) (ws : List (Wire V)) (a b : Nat) :
    (s.push p q ws).chan a b = s.chan a b ++ (if a = p ∧ b = q then ws else []) := by
  simp only [State.push]; split <;> simp

theorem foldl_pushStep (p : Nat) (w : Wire V) (ps : List Nat) (s : State V) :
    ((ps.foldl (pushStep p w) s).link = s.link ∧ (ps.foldl (pushStep p w) s).ids = s.ids ∧ (ps.foldl (pushStep p w) s).receivers = s.receivers ∧
      (ps.foldl (pushStep p w) s).status = s.status ∧ (ps.foldl (pushStep p w) s).peers = s.peers) ∧
    ∀ a b, ∃ n, (ps.foldl (pushStep p w) s).chan a b = s.chan a b ++ List.replicate n w ∧ (a ≠ p → n = 0) := by
  induction ps generalizing s with
  | nil => exact ⟨⟨rfl, rfl, rfl, rfl, rfl⟩, fun a b => ⟨0, by simp, fun _ => rfl⟩⟩
  | cons q ps ih =>
      have := ih (pushStep p w s q)
      refine ⟨⟨this.1.1, this.1.2.1, this.1.2.2.1, this.1.2.2.2.1, this.1.2.2.2.2⟩, ?_⟩
      intro a b
      obtain ⟨n, hn, hp⟩ := this.2 a b
      rw [List.foldl_cons, hn, show (pushStep p w s q).chan a b = _ from push_chan s p q [w] a b]
      split
      · rename_i h
        refine ⟨n + 1, ?_, fun h' => absurd h.1 h'⟩
        rw [List.append_assoc]; rfl
      · exact ⟨n, by simp, hp⟩

theorem foldl_sendStep (p : Nat) (ty : MsgType) (v : V) (rs : List (Nat × Nat)) (s : State V) :
    ((rs.foldl (sendStep p ty v) s).link = s.link ∧ (rs.foldl (sendStep p ty v) s).ids = s.ids ∧
      (rs.foldl (sendStep p ty v) s).receivers = s.receivers ∧
      (rs.foldl (sendStep p ty v) s).status = s.status ∧ (rs.foldl (sendStep p ty v) s).peers = s.peers) ∧
    ∀ a b, (rs.foldl (sendStep p ty v) s).chan a b =
      s.chan a b ++ (if a = p then (rs.filter (·.1 == b)).map (fun r => .data r.2 ty v) else []) := by
  induction rs generalizing s with
  | nil => exact ⟨⟨rfl, rfl, rfl, rfl, rfl⟩, fun a b => by simp⟩
  | cons r rs ih =>
      have := ih (sendStep p ty v s r)
      refine ⟨⟨this.1.1, this.1.2.1, this.1.2.2.1, this.1.2.2.2.1, this.1.2.2.2.2⟩, ?_⟩
      intro a b
      rw [List.foldl_cons, this.2 a b, show (sendStep p ty v s r).chan a b = _ from push_chan s p r.1 _ a b]
      by_cases ha : a = p
      · by_cases hb : b = r.1
        · simp [ha, hb, List.append_assoc]
        · have : r.1 ≠ b := fun h => hb h.symm
          simp [ha, hb, this]
      · simp [ha]

/-! ## The well-formedness of subscriptions -/

/-- The receiver `idx` of `y` listens on the network `net` to a type of the name of `ty`. -/
def Listens (s : State V) (y idx : Nat) (net : String) (sd : String) : Prop :=
  ∃ ty', (s.receivers y)[idx]? = some (ty', net) ∧ serdesName ty' = sd

structure G (s : State V) : Prop where
  ids : ∀ x, s.ids x = (s.receivers x).map (fun r => (r.2, serdesName r.1))
  nodup : ∀ x, (s.ids x).Nodup
  sub : ∀ x y idx net sd, Wire.subscribe idx net sd ∈ s.chan x y → Listens s x idx net sd
  data : ∀ x y idx ty v, Wire.data idx ty v ∈ s.chan x y → ∃ net, Listens s y idx net (serdesName ty)
  rem : ∀ x ty net y idx, (y, idx) ∈ (s.link x ty net).remotes → Listens s y idx net (serdesName ty) ∧ s.status x y = .isOpen
  remNodup : ∀ x ty net, (s.link x ty net).remotes.Nodup
  self : ∀ x, s.status x x = .never

theorem Listens.mono {s s' : State V} {y idx : Nat} {net sd : String} (h : Listens s y idx net sd)
    (hr : ∀ x, ∃ l, s'.receivers x = s.receivers x ++ l) : Listens s' y idx net sd := by
  obtain ⟨ty', h1, h2⟩ := h
  obtain ⟨l, hl⟩ := hr y
  refine ⟨ty', ?_, h2⟩
  rw [hl, List.getElem?_append_left, h1]
  exact (List.getElem?_eq_some_iff.1 h1).1

/-- At most one receiver listens to a name on a network. -/
theorem G.unique {s : State V} (g : G s) {y i j : Nat} {net sd : String} (hi : Listens s y i net sd) (hj : Listens s y j net sd) : i = j := by
  obtain ⟨a, ha, ha'⟩ := hi
  obtain ⟨b, hb, hb'⟩ := hj
  have h1 : (s.ids y)[i]? = some (net, sd) := by rw [g.ids y, List.getElem?_map, ha]; simp [ha']
  have h2 : (s.ids y)[j]? = some (net, sd) := by rw [g.ids y, List.getElem?_map, hb]; simp [hb']
  exact (List.getElem?_inj (List.getElem?_eq_some_iff.1 h1).1 (g.nodup y)).1 (h1.trans h2.symm)

theorem G.remUnique {s : State V} (g : G s) {x y i j : Nat} {ty : MsgType} {net : String} (hi : (y, i) ∈ (s.link x ty net).remotes)
    (hj : (y, j) ∈ (s.link x ty net).remotes) : i = j :=
  g.unique (g.rem _ _ _ _ _ hi).1 (g.rem _ _ _ _ _ hj).1

theorem mem_eraseP_of_unique {l : List (Nat × Nat)} (hn : l.Nodup) {q : Nat} (hu : ∀ i j, (q, i) ∈ l → (q, j) ∈ l → i = j) (y i : Nat) :
    (y, i) ∈ l.eraseP (·.1 == q) ↔ (y, i) ∈ l ∧ y ≠ q := by
  induction l with
  | nil => simp
  | cons x l ih =>
      obtain ⟨x1, x2⟩ := x
      have hn' := List.nodup_cons.1 hn
      by_cases hx : x1 = q
      · subst hx
        rw [List.eraseP_cons_of_pos (by simp)]
        constructor
        · intro h
          refine ⟨List.mem_cons_of_mem _ h, ?_⟩
          rintro rfl
          have := hu x2 i (by simp) (List.mem_cons_of_mem _ h)
          subst this
          exact hn'.1 h
        · rintro ⟨h, hne⟩
          rcases List.mem_cons.1 h with h | h
          · cases h; exact absurd rfl hne
          · exact h
      · rw [List.eraseP_cons_of_neg (by simpa using hx), List.mem_cons,
          ih hn'.2 (fun i j hi hj => hu i j (List.mem_cons_of_mem _ hi) (List.mem_cons_of_mem _ hj)), List.mem_cons]
        constructor
        · rintro (h | h)
          · cases h; exact ⟨Or.inl rfl, hx⟩
          · exact ⟨Or.inr h.1, h.2⟩
        · rintro ⟨h | h, hne⟩
          · exact Or.inl h
          · exact Or.inr ⟨h, hne⟩

theorem init_G : G (init off : State V) :=
  ⟨fun _ => rfl, fun _ => List.nodup_nil, by simp [init], by simp [init], by simp [init], by simp [init], fun _ => rfl⟩

/-- Only the channels, the peers and the parts of links that do not matter here change. -/
theorem G.frame {s s' : State V} (g : G s) (h1 : s'.ids = s.ids) (h2 : s'.receivers = s.receivers) (h3 : ∀ x, s'.status x x = .never)
    (h4 : ∀ x ty net, (s'.link x ty net).remotes = (s.link x ty net).remotes) (h5 : ∀ x y, s.status x y = .isOpen → s'.status x y = .isOpen)
    (h6 : ∀ x y w, w ∈ s'.chan x y → w ∈ s.chan x y ∨
      (∃ idx net sd, w = .subscribe idx net sd ∧ Listens s x idx net sd) ∨
      (∃ idx ty v net, w = .data idx ty v ∧ Listens s y idx net (serdesName ty))) : G s' := by
  have hl : ∀ y idx net sd, Listens s' y idx net sd ↔ Listens s y idx net sd := by intro y idx net sd; simp only [Listens, h2]
  refine ⟨by rw [h1, h2]; exact g.ids, by rw [h1]; exact g.nodup, ?_, ?_, ?_, ?_, h3⟩
  · intro x y idx net sd h
    rw [hl]
    rcases h6 _ _ _ h with h | ⟨_, _, _, e, h⟩ | ⟨_, _, _, _, e, h⟩
    · exact g.sub _ _ _ _ _ h
    · cases e; exact h
    · cases e
  · intro x y idx ty v h
    rcases h6 _ _ _ h with h | ⟨_, _, _, e, h⟩ | ⟨_, _, _, net, e, h⟩
    · obtain ⟨net, h⟩ := g.data _ _ _ _ _ h; exact ⟨net, (hl ..).2 h⟩
    · cases e
    · cases e; exact ⟨net, (hl ..).2 h⟩
  · intro x ty net y idx h
    rw [h4] at h
    exact ⟨(hl ..).2 (g.rem _ _ _ _ _ h).1, h5 _ _ (g.rem _ _ _ _ _ h).2⟩
  · intro x ty net; rw [h4]; exact g.remNodup x ty net

theorem setLink_link (s : State V) (p : Nat) (ty : MsgType) (net : String) (l : Link V) (p' : Nat) (ty' : MsgType) (net' : String) :
    (s.setLink p ty net l).link p' ty' net' = if p' = p ∧ ty' = ty ∧ net' = net then l else s.link p' ty' net' := rfl

theorem addLocal_remotes (l : Link V) (svc : Nat) : (l.addLocal svc).remotes = l.remotes ∧ (l.addLocal svc).last = l.last ∧
    (l.addLocal svc).hasHistory = l.hasHistory := by
  unfold Link.addLocal; split <;> exact ⟨rfl, rfl, rfl⟩

theorem save_remotes (ty : MsgType) (l : Link V) (v : V) : (l.save ty v).remotes = l.remotes ∧ (l.save ty v).locals = l.locals ∧
    (l.save ty v).hasHistory = l.hasHistory := by
  unfold Link.save; split <;> exact ⟨rfl, rfl, rfl⟩

theorem register_receivers (s : State V) (p : Nat) (ty : MsgType) (net : String) (svc : Nat) :
    (∀ x, ∃ l, (register s p ty net svc).receivers x = s.receivers x ++ l) ∧
    (∀ x ty' net', (register s p ty net svc).link x ty' net' =
      if x = p ∧ ty' = ty ∧ net' = net then (s.link p ty net).addLocal svc else s.link x ty' net') ∧
    (register s p ty net svc).status = s.status ∧
    (∀ a b, ∃ n, (register s p ty net svc).chan a b = s.chan a b ++ List.replicate n (.subscribe (s.receivers p).length net (serdesName ty))) := by
  unfold register
  split
  · exact ⟨fun x => ⟨[], by simp [State.setLink]⟩, fun _ _ _ => rfl, rfl, fun a b => ⟨0, by simp [State.setLink]⟩⟩
  · have f := foldl_pushStep p (.subscribe (s.receivers p).length net (serdesName ty)) (s.peers p)
      { s.setLink p ty net ((s.link p ty net).addLocal svc) with
        ids := fun x => if x = p then s.ids x ++ [(net, serdesName ty)] else s.ids x
        receivers := fun x => if x = p then s.receivers x ++ [(ty, net)] else s.receivers x }
    dsimp only at f ⊢
    refine ⟨?_, ?_, ?_, ?_⟩
    · intro x
      rw [f.1.2.2.1]
      by_cases hx : x = p
      · exact ⟨[(ty, net)], by simp [hx]⟩
      · exact ⟨[], by simp [hx]⟩
    · intro x ty' net'; rw [f.1.1]; rfl
    · rw [f.1.2.2.2.1]; rfl
    · intro a b
      obtain ⟨n, hn, -⟩ := f.2 a b
      exact ⟨n, hn⟩

theorem register_G {s : State V} (g : G s) (p : Nat) (ty : MsgType) (net : String) (svc : Nat) : G (register s p ty net svc) := by
  have hfacts := register_receivers s p ty net svc
  have hrem : ∀ x ty' net', ((register s p ty net svc).link x ty' net').remotes = (s.link x ty' net').remotes := by
    intro x ty' net'
    rw [hfacts.2.1]
    split
    · rename_i h; obtain ⟨rfl, rfl, rfl⟩ := h; exact (addLocal_remotes _ _).1
    · rfl
  by_cases hc : (s.ids p).contains (net, serdesName ty) = true
  · have e : register s p ty net svc = s.setLink p ty net ((s.link p ty net).addLocal svc) := by simp only [register, hc, if_true]
    rw [e]; rw [e] at hrem
    exact g.frame rfl rfl g.self hrem (fun _ _ h => h) (fun x y w h => Or.inl h)
  · have e : register s p ty net svc = (s.peers p).foldl (pushStep p (.subscribe (s.receivers p).length net (serdesName ty)))
        { s.setLink p ty net ((s.link p ty net).addLocal svc) with
          ids := fun x => if x = p then s.ids x ++ [(net, serdesName ty)] else s.ids x
          receivers := fun x => if x = p then s.receivers x ++ [(ty, net)] else s.receivers x } := by
      simp only [register, hc]; rfl
    have f := foldl_pushStep p (.subscribe (s.receivers p).length net (serdesName ty)) (s.peers p)
      { s.setLink p ty net ((s.link p ty net).addLocal svc) with
        ids := fun x => if x = p then s.ids x ++ [(net, serdesName ty)] else s.ids x
        receivers := fun x => if x = p then s.receivers x ++ [(ty, net)] else s.receivers x }
    rw [← e] at f
    have hm : ∀ {y idx net' sd}, Listens s y idx net' sd → Listens (register s p ty net svc) y idx net' sd := fun h => h.mono hfacts.1
    have hrec : (register s p ty net svc).receivers p = s.receivers p ++ [(ty, net)] := by rw [f.1.2.2.1]; simp
    refine ⟨?_, ?_, ?_, ?_, ?_, ?_, ?_⟩
    · intro x
      rw [f.1.2.1, f.1.2.2.1]
      dsimp only
      split
      · rw [g.ids x]; simp
      · exact g.ids x
    · intro x
      rw [f.1.2.1]
      dsimp only
      split
      · rename_i hx
        subst hx
        rw [List.nodup_append]
        refine ⟨g.nodup x, by simp, ?_⟩
        intro a ha b hb
        simp at hb
        subst hb
        rintro rfl
        exact hc (by simpa using ha)
      · exact g.nodup x
    · intro x y idx net' sd h
      obtain ⟨n, hn, hp⟩ := f.2 x y
      rw [hn] at h
      rcases List.mem_append.1 h with h | h
      · exact hm (g.sub x y idx net' sd h)
      · by_cases hx : x = p
        · subst hx
          have := List.eq_of_mem_replicate h
          cases this
          exact ⟨ty, by rw [hrec]; simp, rfl⟩
        · rw [hp hx] at h; cases h
    · intro x y idx ty' v h
      obtain ⟨n, hn, -⟩ := f.2 x y
      rw [hn] at h
      rcases List.mem_append.1 h with h | h
      · obtain ⟨net', h⟩ := g.data x y idx ty' v h; exact ⟨net', hm h⟩
      · have := List.eq_of_mem_replicate h; cases this
    · intro x ty' net' y idx h
      rw [hrem] at h
      have := g.rem x ty' net' y idx h
      exact ⟨hm this.1, by rw [f.1.2.2.2.1]; exact this.2⟩
    · intro x ty' net'; rw [hrem]; exact g.remNodup x ty' net'
    · intro x; rw [f.1.2.2.2.1]; exact g.self x

theorem send_facts (s : State V) (p svc : Nat) (ty : MsgType) (net : String) (v : V) :
    (∀ x ty' net', (send s p svc ty net v).1.link x ty' net' = if x = p ∧ ty' = ty ∧ net' = net then (s.link p ty net).save ty v else s.link x ty' net') ∧
    (send s p svc ty net v).1.ids = s.ids ∧ (send s p svc ty net v).1.receivers = s.receivers ∧ (send s p svc ty net v).1.status = s.status ∧
    (∀ a b, (send s p svc ty net v).1.chan a b = s.chan a b ++
      (if a = p then ((s.link p ty net).remotes.filter (·.1 == b)).map (fun r => .data r.2 ty v) else [])) := by
  have f := foldl_sendStep p ty v (s.link p ty net).remotes (s.setLink p ty net ((s.link p ty net).save ty v))
  unfold send
  dsimp only
  exact ⟨fun x ty' net' => by rw [f.1.1]; rfl, f.1.2.1, f.1.2.2.1, f.1.2.2.2.1, f.2⟩

theorem send_G {s : State V} (g : G s) (p svc : Nat) (ty : MsgType) (net : String) (v : V) : G (send s p svc ty net v).1 := by
  obtain ⟨f1, f2, f3, f4, f5⟩ := send_facts s p svc ty net v
  refine g.frame f2 f3 (by rw [f4]; exact g.self) ?_ (by rw [f4]; exact fun _ _ h => h) ?_
  · intro x ty' net'
    rw [f1]
    split
    · rename_i h; obtain ⟨rfl, rfl, rfl⟩ := h; exact (save_remotes _ _ _).1
    · rfl
  · intro x y w h
    rw [f5] at h
    rcases List.mem_append.1 h with h | h
    · exact Or.inl h
    · split at h
      · simp only [List.mem_map, List.mem_filter] at h
        obtain ⟨⟨r1, r2⟩, ⟨hr, he⟩, rfl⟩ := h
        simp at he
        subst he
        exact Or.inr (Or.inr ⟨r2, ty, v, net, rfl, (g.rem _ _ _ _ _ hr).1⟩)
      · cases h

theorem mem_subscriptions {s : State V} {p : Nat} {w : Wire V} (h : w ∈ subscriptions s p) :
    ∃ idx net sd, w = .subscribe idx net sd ∧ Listens s p idx net sd := by
  unfold subscriptions at h
  rw [List.mem_mapIdx] at h
  obtain ⟨i, hi, e⟩ := h
  exact ⟨i, _, _, e.symm, _, by rw [List.getElem?_eq_getElem hi], rfl⟩

theorem subscribeStep_G {r : State V × List (Out V)} (g : G r.1) {q p idx : Nat} {net sd : String} (ho : r.1.status q p = .isOpen)
    (hl : Listens r.1 p idx net sd) (ty : MsgType) : G (subscribeStep q p idx net sd r ty).1 := by
  unfold subscribeStep
  split
  · rename_i hty
    dsimp only
    split
    · exact g
    · rename_i hc
      have hc' : (p, idx) ∉ (r.1.link q ty net).remotes := by simpa using hc
      have hadd : ((r.1.link q ty net).addRemote (p, idx)).remotes = (r.1.link q ty net).remotes ++ [(p, idx)] := by
        simp only [Link.addRemote, hc]; rfl
      refine ⟨g.ids, g.nodup, ?_, ?_, ?_, ?_, g.self⟩
      · intro x y i n d h
        rw [push_chan] at h
        rcases List.mem_append.1 h with h2 | h2
        · exact g.sub x y i n d h2
        · split at h2 <;> simp at h2
      · intro x y i t v h
        rw [push_chan] at h
        rcases List.mem_append.1 h with h2 | h2
        · exact g.data x y i t v h2
        · split at h2
          · rename_i hxy
            obtain ⟨rfl, rfl⟩ := hxy
            simp at h2
            obtain ⟨_, _, rfl, rfl, _⟩ := h2
            exact ⟨net, by rw [hty]; exact hl⟩
          · cases h2
      · intro x t n y i h
        have h' : (y, i) ∈ ((r.1.setLink q ty net ((r.1.link q ty net).addRemote (p, idx))).link x t n).remotes := h
        rw [setLink_link] at h'
        split at h'
        · rename_i hx
          obtain ⟨rfl, rfl, rfl⟩ := hx
          rw [hadd] at h'
          rcases List.mem_append.1 h' with h' | h'
          · exact g.rem x t n y i h'
          · simp at h'
            obtain ⟨rfl, rfl⟩ := h'
            exact ⟨by rw [hty]; exact hl, ho⟩
        · exact g.rem x t n y i h'
      · intro x t n
        show ((r.1.setLink q ty net ((r.1.link q ty net).addRemote (p, idx))).link x t n).remotes.Nodup
        rw [setLink_link]
        split
        · rename_i hx
          rw [hadd, List.nodup_append]
          refine ⟨g.remNodup q ty net, by simp, ?_⟩
          intro a ha b hb
          simp at hb
          subst hb
          rintro rfl
          exact hc' ha
        · exact g.remNodup x t n
  · exact g

theorem subscribeStep_keeps (q p idx : Nat) (net sd : String) (r : State V × List (Out V)) (ty : MsgType) :
    (subscribeStep q p idx net sd r ty).1.status = r.1.status ∧ (subscribeStep q p idx net sd r ty).1.receivers = r.1.receivers := by
  unfold subscribeStep
  split
  · dsimp only
    split <;> exact ⟨rfl, rfl⟩
  · exact ⟨rfl, rfl⟩

/-- What holds of the state and the outputs after every single subscription holds after all of them. -/
theorem foldl_subscribe (P : State V × List (Out V) → Prop) {q p idx : Nat} {net sd : String} (types : List MsgType)
    (hstep : ∀ r ty, P r → G r.1 → r.1.status q p = .isOpen → Listens r.1 p idx net sd → P (subscribeStep q p idx net sd r ty)) :
    ∀ r, P r → G r.1 → r.1.status q p = .isOpen → Listens r.1 p idx net sd →
      P (types.foldl (subscribeStep q p idx net sd) r) ∧ G (types.foldl (subscribeStep q p idx net sd) r).1 := by
  induction types with
  | nil => intro r h g _ _; exact ⟨h, g⟩
  | cons ty types ih =>
      intro r h g ho hl
      have k := subscribeStep_keeps q p idx net sd r ty
      refine ih _ (hstep r ty h g ho hl) (subscribeStep_G g ho hl ty) (by rw [k.1]; exact ho) ?_
      obtain ⟨t, h1, h2⟩ := hl
      exact ⟨t, by rw [k.2]; exact h1, h2⟩

/-- The state after taking the next message off a channel. -/
def State.pop (s : State V) (p q : Nat) (ws : List (Wire V)) : State V :=
  { s with chan := fun p' q' => if p' = p ∧ q' = q then ws else s.chan p' q' }

theorem pop_G {s : State V} (g : G s) {p q : Nat} {w : Wire V} {ws : List (Wire V)} (h : s.chan p q = w :: ws) : G (s.pop p q ws) := by
  refine g.frame rfl rfl g.self (fun _ _ _ => rfl) (fun _ _ h => h) ?_
  intro x y w' hw
  simp only [State.pop] at hw
  split at hw
  · rename_i hx
    obtain ⟨rfl, rfl⟩ := hx
    exact Or.inl (by rw [h]; exact List.mem_cons_of_mem _ hw)
  · exact Or.inl hw

theorem deliver_cases (s : State V) (p q : Nat) :
    ((deliver s p q) = (s, []) ) ∨ ∃ w ws, s.chan p q = w :: ws ∧ s.status q p = .isOpen ∧ deliver s p q = handle (s.pop p q ws) q p w := by
  unfold deliver
  split
  · exact Or.inl rfl
  · rename_i w ws h
    split
    · rename_i ho
      exact Or.inr ⟨w, ws, h, ho, rfl⟩
    · exact Or.inl rfl

theorem handle_data_state (s : State V) (q p idx : Nat) (ty : MsgType) (v : V) : (handle s q p (.data idx ty v)).1 = s := by
  unfold handle
  dsimp only
  split
  · rfl
  · split <;> rfl

theorem deliver_G {s : State V} (g : G s) (p q : Nat) : G (deliver s p q).1 := by
  rcases deliver_cases s p q with h | ⟨w, ws, hc, ho, e⟩
  · rw [h]; exact g
  · rw [e]
    have g' := pop_G g hc
    cases w with
    | data idx ty v => rw [handle_data_state]; exact g'
    | subscribe idx net sd =>
        exact (foldl_subscribe (fun _ => True) allTypes (fun _ _ _ _ _ _ => trivial) (s.pop p q ws, []) trivial g' ho
          (g.sub p q idx net sd (by rw [hc]; simp))).2

theorem connect_G {s : State V} (g : G s) (p q : Nat) : G (connect s p q) := by
  unfold connect
  split
  · rename_i h
    refine g.frame rfl rfl ?_ (fun _ _ _ => rfl) ?_ (fun _ _ _ h => Or.inl h)
    · intro x
      dsimp only
      rw [if_neg]
      · exact g.self x
      · rintro (⟨rfl, rfl⟩ | ⟨rfl, rfl⟩) <;> exact absurd rfl h.1
    · intro x y hxy
      dsimp only
      split
      · rfl
      · exact hxy
  · exact g

theorem close_link {s : State V} {p q : Nat} (h : s.status p q = .isOpen) (x : Nat) (ty : MsgType) (net : String) :
    ((close s p q).1.link x ty net) = if x = p then (s.link x ty net).removeRemote q else s.link x ty net := by
  unfold close; rw [if_pos h]

theorem close_remotes {s : State V} (g : G s) {p q : Nat} (h : s.status p q = .isOpen) (x : Nat) (ty : MsgType) (net : String) (y i : Nat) :
    (y, i) ∈ ((close s p q).1.link x ty net).remotes ↔ (y, i) ∈ (s.link x ty net).remotes ∧ ¬ (x = p ∧ y = q) := by
  rw [close_link h]
  split
  · rename_i hx
    unfold Link.removeRemote
    dsimp only
    rw [mem_eraseP_of_unique (g.remNodup x ty net) (fun i j hi hj => g.remUnique hi hj)]
    exact ⟨fun h => ⟨h.1, fun h' => h.2 h'.2⟩, fun h => ⟨h.1, fun h' => h.2 ⟨hx, h'⟩⟩⟩
  · rename_i hx
    exact ⟨fun h => ⟨h, fun h' => hx h'.1⟩, fun h => h.1⟩

theorem close_G {s : State V} (g : G s) (p q : Nat) : G (close s p q).1 := by
  by_cases h : s.status p q = .isOpen
  · have hr := close_remotes g h
    have e : (close s p q).1.status = fun x y => if x = p ∧ y = q then .closed else s.status x y := by unfold close; rw [if_pos h]
    have e1 : (close s p q).1.ids = s.ids := by unfold close; rw [if_pos h]
    have e2 : (close s p q).1.receivers = s.receivers := by unfold close; rw [if_pos h]
    have e3 : (close s p q).1.chan = s.chan := by unfold close; rw [if_pos h]
    have hl : ∀ y idx net sd, Listens (close s p q).1 y idx net sd ↔ Listens s y idx net sd := by
      intro y idx net sd; simp only [Listens, e2]
    refine ⟨by rw [e1, e2]; exact g.ids, by rw [e1]; exact g.nodup, ?_, ?_, ?_, ?_, ?_⟩
    · intro x y i n d hh; rw [e3] at hh; exact (hl ..).2 (g.sub x y i n d hh)
    · intro x y i t v hh; rw [e3] at hh; obtain ⟨n, hh⟩ := g.data x y i t v hh; exact ⟨n, (hl ..).2 hh⟩
    · intro x ty net y i hh
      rw [hr] at hh
      have := g.rem x ty net y i hh.1
      refine ⟨(hl ..).2 this.1, ?_⟩
      rw [e]
      dsimp only
      rw [if_neg hh.2]
      exact this.2
    · intro x ty net
      rw [close_link h]
      split
      · exact List.Nodup.sublist List.eraseP_sublist (g.remNodup x ty net)
      · exact g.remNodup x ty net
    · intro x
      rw [e]
      dsimp only
      split
      · rename_i hx
        obtain ⟨rfl, rfl⟩ := hx
        rw [g.self x] at h; cases h
      · exact g.self x
  · have e : close s p q = (s, []) := by unfold close; rw [if_neg h]
    rw [e]; exact g

theorem announce_G {s : State V} (g : G s) (p q : Nat) : G (s.push p q (subscriptions s p)) := by
  refine g.frame rfl rfl g.self (fun _ _ _ => rfl) (fun _ _ h => h) ?_
  intro x y w h
  rw [push_chan] at h
  rcases List.mem_append.1 h with h2 | h2
  · exact Or.inl h2
  · split at h2
    · rename_i hx
      obtain ⟨rfl, rfl⟩ := hx
      exact Or.inr (Or.inl (mem_subscriptions h2))
    · cases h2

theorem on_G {s : State V} (g : G s) (e : Event V) : G (on s e).1 := by
  cases e with
  | register p ty net svc => exact register_G g p ty net svc
  | connect p q => exact connect_G g p q
  | announce p q => simp only [on]; split; exact announce_G g p q; exact g
  | send p svc ty net v => exact send_G g p svc ty net v
  | deliver p q => exact deliver_G g p q
  | close p q => exact close_G g p q

theorem run_G (h : List (Event V)) : G (run off h).1 := by
  rw [← List.reverse_reverse h]
  induction h.reverse with
  | nil => exact init_G
  | cons e h ih => rw [List.reverse_cons, run_append]; exact on_G ih e

end SilKit.Links
