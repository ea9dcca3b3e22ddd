import Verif.Spec.Rpc
/-!
# Lemmas about servers of remote procedure calls
-/
namespace SilKit.Rpc
open Spec

def getIn (l : List (Nat × Inner)) (i : Nat) : Option Inner := (l.find? fun e => e.1 == i).map (·.2)

theorem get_eq (s : Server) (i : Nat) : s.get i = getIn s.inner i := rfl

theorem getIn_nil (i : Nat) : getIn [] i = none := rfl

theorem getIn_cons (e : Nat × Inner) (l : List (Nat × Inner)) (i : Nat) : getIn (e :: l) i = if e.1 = i then some e.2 else getIn l i := by
  unfold getIn
  by_cases h : e.1 = i
  · simp [h]
  · simp [h]

theorem getIn_none {l : List (Nat × Inner)} {i : Nat} (h : i ∉ l.map (·.1)) : getIn l i = none := by
  induction l with
  | nil => rfl
  | cons e l ih =>
    rw [List.map_cons, List.mem_cons, not_or] at h
    rw [getIn_cons, if_neg (fun c => h.1 c.symm), ih h.2]

theorem getIn_mem {l : List (Nat × Inner)} {i : Nat} {n : Inner} (h : getIn l i = some n) : (i, n) ∈ l := by
  induction l with
  | nil => cases h
  | cons e l ih =>
    rw [getIn_cons] at h
    split at h
    · rename_i he
      cases h
      rw [← he]
      exact List.mem_cons_self
    · exact List.mem_cons_of_mem _ (ih h)

theorem getIn_of_mem {l : List (Nat × Inner)} (hn : (l.map (·.1)).Nodup) {i : Nat} {n : Inner} (h : (i, n) ∈ l) : getIn l i = some n := by
  induction l with
  | nil => cases h
  | cons e l ih =>
    rw [List.map_cons, List.nodup_cons] at hn
    rw [getIn_cons]
    rcases List.mem_cons.1 h with c | c
    · rw [← c, if_pos rfl]
    · rw [if_neg, ih hn.2 c]
      intro he
      exact hn.1 (he ▸ List.mem_map.2 ⟨_, c, rfl⟩)

theorem getIn_map {l : List (Nat × Inner)} {f : Nat × Inner → Nat × Inner} (hf : ∀ e, (f e).1 = e.1) (i : Nat) :
    getIn (l.map f) i = (getIn l i).map fun n => (f (i, n)).2 := by
  induction l with
  | nil => rfl
  | cons e l ih =>
    rw [List.map_cons, getIn_cons, getIn_cons, hf, ih]
    by_cases h : e.1 = i
    · rw [if_pos h, if_pos h, ← h]; rfl
    · rw [if_neg h, if_neg h]

theorem map_keys {l : List (Nat × Inner)} {f : Nat × Inner → Nat × Inner} (hf : ∀ e, (f e).1 = e.1) : (l.map f).map (·.1) = l.map (·.1) := by
  rw [List.map_map]
  exact List.map_congr_left fun e _ => hf e

theorem modEntry_key (i : Nat) (f : Inner → Inner) (e : Nat × Inner) : (modEntry i f e).1 = e.1 := by unfold modEntry; split <;> rfl
theorem setEntry_key (b : Bool) (e : Nat × Inner) : (setEntry b e).1 = e.1 := by unfold setEntry; split <;> rfl
theorem submitEntry_key (u : Uuid) (e : Nat × Inner) : (submitEntry u e).1 = e.1 := by unfold submitEntry; split <;> rfl

/-- The internal servers of a server are for different clients, and each call is held once. -/
structure Wf (s : Server) : Prop where
  keys : (s.inner.map (·.1)).Nodup
  acts : ∀ e ∈ s.inner, e.2.active.Nodup

/-- How often a server holds the call of a client. -/
def held (s : Server) (i : Nat) (u : Uuid) : Nat := match getIn s.inner i with | some n => n.active.count u | none => 0

/-- How often a server answers the call of a client. -/
def answersN (i : Nat) (u : Uuid) (o : List SOut) : Nat := (o.filterMap (answered i)).countP (·.uuid == u)

theorem has_iff (s : Server) (i : Nat) : s.has i = true ↔ i ∈ s.inner.map (·.1) := by
  unfold Server.has
  simp only [List.any_eq_true, List.mem_map]
  constructor
  · rintro ⟨e, he, h⟩; exact ⟨e, he, by simpa using h⟩
  · rintro ⟨e, he, h⟩; exact ⟨e, he, by simpa using h⟩

theorem wf_init : Wf {} := ⟨List.nodup_nil, fun e h => by cases h⟩

theorem meet_wf {s : Server} (w : Wf s) (i : Nat) : Wf (s.meet i) := by
  unfold Server.meet
  split
  · exact w
  · rename_i h
    have hk : i ∉ s.inner.map (·.1) := fun c => h ((has_iff s i).2 c)
    refine ⟨?_, fun e he => ?_⟩
    · simp only [List.map_append, List.map_cons, List.map_nil]
      refine List.nodup_append.2 ⟨w.keys, by simp, fun a ha b hb c => hk ?_⟩
      rw [List.mem_singleton] at hb
      rw [← hb, ← c]; exact ha
    · rcases List.mem_append.1 he with he | he
      · exact w.acts e he
      · rw [List.mem_singleton] at he; subst he; exact List.nodup_nil

theorem getIn_append (l m : List (Nat × Inner)) (i : Nat) : getIn (l ++ m) i = (getIn l i).or (getIn m i) := by
  induction l with
  | nil => rfl
  | cons e l ih =>
    rw [List.cons_append, getIn_cons, getIn_cons, ih]
    split <;> rfl

theorem held_meet (s : Server) (k i : Nat) (u : Uuid) : held (s.meet k) i u = held s i u := by
  unfold Server.meet
  split
  · rfl
  · unfold held
    rw [getIn_append]
    cases getIn s.inner i with
    | some n => rfl
    | none =>
      rw [Option.none_or, getIn_cons, getIn_nil]
      split
      · rename_i h
        split at h
        · cases h; rfl
        · cases h
      · rfl

theorem wf_map {s : Server} (w : Wf s) {f : Nat × Inner → Nat × Inner} (hf : ∀ e, (f e).1 = e.1) (ha : ∀ e ∈ s.inner, (f e).2.active.Nodup) (b : Bool) :
    Wf { s with handler := b, inner := s.inner.map f } := by
  refine ⟨by simp only [map_keys hf]; exact w.keys, fun e he => ?_⟩
  obtain ⟨e', he', rfl⟩ := List.mem_map.1 he
  exact ha e' he'

theorem held_map {s : Server} {f : Nat × Inner → Nat × Inner} (hf : ∀ e, (f e).1 = e.1) (ha : ∀ e, (f e).2.active = e.2.active) (b : Bool) (i : Nat) (u : Uuid) :
    held { s with handler := b, inner := s.inner.map f } i u = held s i u := by
  unfold held
  simp only [getIn_map hf]
  cases getIn s.inner i with
  | none => rfl
  | some n => simp only [Option.map_some, ha]

theorem enroll_active (i : Nat) (e : Nat × Inner) : (modEntry i (fun n => { n with enrolled := true }) e).2.active = e.2.active := by
  unfold modEntry; split <;> rfl

theorem setEntry_active (b : Bool) (e : Nat × Inner) : (setEntry b e).2.active = e.2.active := by unfold setEntry; split <;> rfl

theorem enroll_wf {s : Server} (w : Wf s) (i : Nat) : Wf (s.enroll i) :=
  wf_map w (modEntry_key _ _) (fun e he => by rw [enroll_active]; exact w.acts e he) s.handler

theorem held_enroll (s : Server) (k i : Nat) (u : Uuid) : held (s.enroll k) i u = held s i u :=
  held_map (modEntry_key _ _) (enroll_active k) s.handler i u

theorem setHandler_wf {s : Server} (w : Wf s) (b : Bool) : Wf (s.setHandler b) :=
  wf_map w (setEntry_key _) (fun e he => by rw [setEntry_active]; exact w.acts e he) b

theorem held_setHandler (s : Server) (b : Bool) (i : Nat) (u : Uuid) : held (s.setHandler b) i u = held s i u :=
  held_map (setEntry_key _) (setEntry_active b) b i u

theorem submitEntry_nodup {u : Uuid} {e : Nat × Inner} (h : e.2.active.Nodup) : (submitEntry u e).2.active.Nodup := by
  unfold submitEntry
  split
  · exact h.filter _
  · exact h

theorem submitAlive_wf {s : Server} (w : Wf s) (now : Int) (u : Uuid) (d : Data) : Wf (s.submitAlive now u d).1 :=
  wf_map w (submitEntry_key u) (fun e he => submitEntry_nodup (w.acts e he)) s.handler

/-- The responses that `SubmitResult` sends to a client. -/
theorem submit_to {l : List (Nat × Inner)} (hn : (l.map (·.1)).Nodup) (now : Int) (u : Uuid) (d : Data) (i : Nat) :
    (l.filterMap (submitAnswer now u d)).filterMap (answered i) =
      match getIn l i with
      | some n => if n.enrolled ∧ u ∈ n.active then [⟨now, u, d, .success⟩] else []
      | none => [] := by
  induction l with
  | nil => rfl
  | cons e l ih =>
    rw [List.map_cons, List.nodup_cons] at hn
    rw [getIn_cons]
    by_cases he : e.1 = i
    · rw [if_pos he]
      have h0 : (l.filterMap (submitAnswer now u d)).filterMap (answered i) = [] := by
        rw [ih hn.2, getIn_none (he ▸ hn.1)]
      by_cases hc : e.2.enrolled ∧ u ∈ e.2.active
      · rw [List.filterMap_cons_some (b := .answer e.1 ⟨now, u, d, .success⟩) (by rw [submitAnswer, if_pos hc]),
          List.filterMap_cons_some (b := ⟨now, u, d, .success⟩) (by rw [answered, if_pos he]), h0]
        simp only [if_pos hc]
      · rw [List.filterMap_cons_none (by rw [submitAnswer, if_neg hc]), h0]
        simp only [if_neg hc]
    · rw [if_neg he, ← ih hn.2]
      by_cases hc : e.2.enrolled ∧ u ∈ e.2.active
      · rw [List.filterMap_cons_some (b := .answer e.1 ⟨now, u, d, .success⟩) (by rw [submitAnswer, if_pos hc]),
          List.filterMap_cons_none (by rw [answered, if_neg he])]
      · rw [List.filterMap_cons_none (by rw [submitAnswer, if_neg hc])]

theorem answersN_append (i : Nat) (u : Uuid) (a b : List SOut) : answersN i u (a ++ b) = answersN i u a + answersN i u b := by
  simp [answersN, List.filterMap_append, List.countP_append]

theorem answersN_stateError (i : Nat) (u : Uuid) (c : Prop) [Decidable c] : answersN i u (if c then [.stateError] else []) = 0 := by
  split <;> rfl

theorem count_filter_ne (l : List Nat) (u v : Nat) : (l.filter (· != u)).count v = if v = u then 0 else l.count v := by
  induction l with
  | nil => simp
  | cons x l ih =>
    by_cases hx : x = u
    · rw [List.filter_cons_of_neg (by simp [hx]), ih]
      by_cases hv : v = u
      · rw [if_pos hv, if_pos hv]
      · rw [if_neg hv, if_neg hv, List.count_cons_of_ne]
        intro c; exact hv (c.symm.trans hx)
    · rw [List.filter_cons_of_pos (by simp [hx]), List.count_cons, ih, List.count_cons]
      by_cases hv : v = u
      · rw [if_pos hv, if_pos hv, if_neg]
        simp; intro c; exact hx (c.trans hv)
      · rw [if_neg hv, if_neg hv]

/-- Submitting a result turns a call that is held into an answer. -/
theorem submitAlive_token {s : Server} (w : Wf s) (now : Int) (u v : Uuid) (d : Data) (i : Nat) :
    held (s.submitAlive now u d).1 i v + answersN i v (s.submitAlive now u d).2 = held s i v := by
  unfold Server.submitAlive
  simp only [answersN_append, answersN_stateError, Nat.add_zero]
  rw [answersN, submit_to w.keys]
  unfold held
  simp only [getIn_map (submitEntry_key u)]
  cases hg : getIn s.inner i with
  | none => rfl
  | some n =>
    simp only [Option.map_some, submitEntry]
    by_cases hc : n.enrolled ∧ u ∈ n.active
    · rw [if_pos hc, if_pos hc]
      simp only [count_filter_ne]
      by_cases hv : v = u
      · rw [if_pos hv, hv, (w.acts _ (getIn_mem hg)).count, if_pos hc.2]
        simp
      · rw [if_neg hv]
        have hv' : ¬ u = v := fun c => hv c.symm
        simp [hv']
    · rw [if_neg hc, if_neg hc]
      simp

theorem inline_token {now : Int} {u v : Uuid} {i : Nat} (l : List Data) {r : Server × List SOut} (w : Wf r.1) :
    Wf (l.foldl (inlineStep now u) r).1 ∧
    held (l.foldl (inlineStep now u) r).1 i v + answersN i v (l.foldl (inlineStep now u) r).2 = held r.1 i v + answersN i v r.2 := by
  induction l generalizing r with
  | nil => exact ⟨w, rfl⟩
  | cons d l ih =>
    rw [List.foldl_cons]
    have w' : Wf (inlineStep now u r d).1 := submitAlive_wf w now u d
    obtain ⟨h1, h2⟩ := ih w'
    refine ⟨h1, h2.trans ?_⟩
    have := submitAlive_token w now u v d i
    simp only [inlineStep, answersN_append]
    omega

theorem submit_wf {s : Server} (w : Wf s) (now : Int) (u : Uuid) (d : Data) : Wf (s.submit now u d).1 := by
  unfold Server.submit
  split
  · exact w
  · split
    · exact submitAlive_wf w now u d
    · exact ⟨w.keys, w.acts⟩

theorem submit_token {s : Server} (w : Wf s) (now : Int) (u v : Uuid) (d : Data) (i : Nat) :
    held (s.submit now u d).1 i v + answersN i v (s.submit now u d).2 = held s i v := by
  unfold Server.submit
  split
  · simp [answersN]
  · split
    · exact submitAlive_token w now u v d i
    · simp [answersN, answered, held]

theorem take_active {s : Server} {k : Nat} {u : Uuid} (e : Nat × Inner) :
    (modEntry k (fun n => { n with active := n.active ++ [u] }) e).2.active = if e.1 = k then e.2.active ++ [u] else e.2.active := by
  unfold modEntry; split <;> rfl

theorem answersN_one (i k : Nat) (v : Uuid) (m : Response) : answersN i v [.answer k m] = if k = i ∧ m.uuid = v then 1 else 0 := by
  unfold answersN
  by_cases hk : k = i
  · by_cases hm : m.uuid = v <;> simp [answered, hk, hm]
  · simp [answered, hk]

/-- Receiving a call: it is held, or it is answered. -/
theorem take_token {s : Server} (w : Wf s) (hb : s.ub = false) {k : Nat} (hk : s.has k = true) (now : Int) (m : Call) (inl : List Data) (i : Nat) (v : Uuid) :
    Wf (s.take k now m inl).1 ∧
    held (s.take k now m inl).1 i v + answersN i v (s.take k now m inl).2 = held s i v + if k = i ∧ m.uuid = v then 1 else 0 := by
  unfold Server.take
  rw [if_neg (by simp [hb]), get_eq]
  cases hg : getIn s.inner k with
  | none =>
    obtain ⟨e, he, hek⟩ := List.mem_map.1 ((has_iff s k).1 hk)
    have : getIn s.inner k = some e.2 := getIn_of_mem w.keys (by rw [← hek]; exact he)
    rw [hg] at this; cases this
  | some n =>
    simp only
    by_cases hh : n.handler = true
    · rw [if_neg (by simp [hh])]
      by_cases hm : m.uuid ∈ n.active
      · rw [if_pos hm]
        exact ⟨w, by rw [answersN_one]⟩
      · rw [if_neg hm]
        have w' : Wf (s.modify k fun n => { n with active := n.active ++ [m.uuid] }) := by
          refine wf_map w (modEntry_key _ _) (fun e he => ?_) s.handler
          rw [take_active (s := s)]
          split
          · rename_i hek
            have : getIn s.inner k = some e.2 := getIn_of_mem w.keys (by rw [← hek]; exact he)
            rw [hg] at this; cases this
            refine List.nodup_append.2 ⟨w.acts e he, by simp, fun a ha b hb c => hm ?_⟩
            rw [List.mem_singleton] at hb
            rw [← hb, ← c]; exact ha
          · exact w.acts e he
        obtain ⟨h1, h2⟩ := inline_token (now := now) (u := m.uuid) (v := v) (i := i) inl
          (r := (s.modify k fun n => { n with active := n.active ++ [m.uuid] }, [.called k m.uuid m.data])) w'
        refine ⟨h1, h2.trans ?_⟩
        have : answersN i v [.called k m.uuid m.data] = 0 := rfl
        rw [this, Nat.add_zero]
        unfold held Server.modify
        simp only [getIn_map (modEntry_key _ _)]
        by_cases hki : k = i
        · subst hki
          rw [hg]
          simp only [Option.map_some, modEntry, if_true, List.count_append, List.count_singleton, true_and]
          by_cases hmv : m.uuid = v <;> simp [hmv]
        · rw [if_neg (fun c => hki c.1)]
          cases getIn s.inner i with
          | none => rfl
          | some n' =>
            simp only [Option.map_some, modEntry]
            rw [if_neg (fun c => hki c.symm)]; rfl
    · rw [if_pos (by simp [hh])]
      exact ⟨w, by rw [answersN_one]⟩

theorem has_map {s : Server} {f : Nat × Inner → Nat × Inner} (hf : ∀ e, (f e).1 = e.1) (b b' : Bool) (i : Nat) :
    ({ s with handler := b, inner := s.inner.map f, ub := b' } : Server).has i = s.has i := by
  rw [Bool.eq_iff_iff, has_iff, has_iff, map_keys hf]

theorem has_meet {s : Server} (k i : Nat) (h : s.has i = true) : (s.meet k).has i = true := by
  unfold Server.meet
  split
  · exact h
  · rw [has_iff] at h ⊢
    simp only [List.map_append]
    exact List.mem_append_left _ h

theorem has_submitAlive (s : Server) (now : Int) (u : Uuid) (d : Data) (i : Nat) : (s.submitAlive now u d).1.has i = s.has i :=
  has_map (submitEntry_key u) s.handler s.ub i

theorem has_submit (s : Server) (now : Int) (u : Uuid) (d : Data) (i : Nat) : (s.submit now u d).1.has i = s.has i := by
  unfold Server.submit
  split
  · rfl
  · split
    · exact has_submitAlive s now u d i
    · rfl

theorem has_inline {now : Int} {u : Uuid} {i : Nat} (l : List Data) (r : Server × List SOut) : (l.foldl (inlineStep now u) r).1.has i = r.1.has i := by
  induction l generalizing r with
  | nil => rfl
  | cons d l ih => rw [List.foldl_cons, ih]; exact has_submitAlive r.1 now u d i

theorem has_take (s : Server) (k : Nat) (now : Int) (m : Call) (inl : List Data) (i : Nat) : (s.take k now m inl).1.has i = s.has i := by
  unfold Server.take
  split
  · rfl
  · split
    · rfl
    · split
      · rfl
      · split
        · rfl
        · rw [has_inline]
          exact has_map (modEntry_key _ _) s.handler s.ub i

end SilKit.Rpc
