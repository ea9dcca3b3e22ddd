import Verif.Spec.Bus
import Verif.Lemmas.LinksAccept
import Verif.Lemmas.Util
/-!
# Services on links: every service sees a run of its own, and the links see a run of theirs
-/
namespace SilKit.Bus
open SilKit.Links (MsgType)
open Spec

variable {σ α M ω : Type} {off : Nat → MsgType → String → Bool} {S : Service σ α M ω}

theorem run_append (h : List (Event α)) (e : Event α) :
    run off S (h ++ [e]) = ((on S (run off S h).1 e).1, (run off S h).2 ++ (on S (run off S h).1 e).2) := by
  simp [run, List.foldl_append]

theorem linkPart_append (a b : List (Out α M ω)) : linkPart (a ++ b) = linkPart a ++ linkPart b := by simp [linkPart]
theorem calls_append (p i : Nat) (a b : List (Out α M ω)) : calls p i (a ++ b) = calls p i a ++ calls p i b := by simp [calls]
theorem outs_append (p i : Nat) (a b : List (Out α M ω)) : outs p i (a ++ b) = outs p i a ++ outs p i b := by simp [outs]

theorem linkPart_outs (q i : Nat) (l : List ω) : linkPart (l.map (.out q i) : List (Out α M ω)) = [] := by
  induction l with
  | nil => rfl
  | cons x l ih => simpa [linkPart] using ih

/-! ## The links -/

theorem react_linkPart (r : State σ M × List (Out α M ω)) (o : Links.Out (Nat × M)) : linkPart (react S r o).2 = linkPart r.2 ++ [o] := by
  unfold react
  cases o with
  | received q i ty net p v =>
      simp only
      split
      · rw [linkPart_append]; rfl
      · rw [linkPart_append]
        congr 1
        rw [show ∀ (x : Out α M ω) l, x :: l = [x] ++ l from fun _ _ => rfl, linkPart_append, linkPart_outs]; rfl
  | _ => simp only; rw [linkPart_append]; rfl

theorem react_links (r : State σ M × List (Out α M ω)) (o : Links.Out (Nat × M)) : (react S r o).1.links = r.1.links := by
  unfold react
  cases o with
  | received q i ty net p v => simp only; split <;> rfl
  | _ => rfl

theorem foldl_react_linkPart (l : List (Links.Out (Nat × M))) (r : State σ M × List (Out α M ω)) :
    linkPart (l.foldl (react S) r).2 = linkPart r.2 ++ l ∧ (l.foldl (react S) r).1.links = r.1.links := by
  induction l generalizing r with
  | nil => simp
  | cons o l ih =>
      rw [List.foldl_cons, (ih _).1, (ih _).2, react_linkPart, react_links]
      simp

/-- The links have seen a history of their own. -/
def LinksOk (off : Nat → MsgType → String → Bool) (r : State σ M × List (Out α M ω)) : Prop :=
  ∃ lh, Links.Spec.run off lh = (r.1.links, linkPart r.2)

theorem onLinks_ok {r : State σ M × List (Out α M ω)} (h : LinksOk off r) (e : Links.Event (Nat × M)) : LinksOk off (onLinks S r e) := by
  obtain ⟨lh, e1⟩ := h
  refine ⟨lh ++ [e], ?_⟩
  rw [Links.run_append, e1]
  unfold onLinks
  rw [(foldl_react_linkPart _ _).1, (foldl_react_linkPart _ _).2]

theorem act_ok {r : State σ M × List (Out α M ω)} (h : LinksOk off r) (p i : Nat) (net : String) (a : Act M ω) : LinksOk off (act S p i net r a) := by
  cases a with
  | send m => exact onLinks_ok h _
  | out o =>
      obtain ⟨lh, e⟩ := h
      refine ⟨lh, ?_⟩
      rw [e]
      simp [act, linkPart]

theorem acts_ok (l : List (Act M ω)) {r : State σ M × List (Out α M ω)} (h : LinksOk off r) (p i : Nat) (net : String) :
    LinksOk off (l.foldl (act S p i net) r) := by
  induction l generalizing r with
  | nil => exact h
  | cons a l ih => exact ih (act_ok h p i net a)

/-- The trace so far does not matter to a step. -/
theorem react_base (s : State σ M) (t t' : List (Out α M ω)) (o : Links.Out (Nat × M)) :
    react S (s, t ++ t') o = ((react S (s, t') o).1, t ++ (react S (s, t') o).2) := by
  unfold react
  cases o with
  | received q i ty net p v => simp only; split <;> simp
  | _ => simp

theorem foldl_react_base (l : List (Links.Out (Nat × M))) (s : State σ M) (t t' : List (Out α M ω)) :
    l.foldl (react S) (s, t ++ t') = ((l.foldl (react S) (s, t')).1, t ++ (l.foldl (react S) (s, t')).2) := by
  induction l generalizing s t' with
  | nil => rfl
  | cons o l ih => rw [List.foldl_cons, List.foldl_cons, react_base, ih]

theorem onLinks_base (s : State σ M) (t t' : List (Out α M ω)) (e : Links.Event (Nat × M)) :
    onLinks S (s, t ++ t') e = ((onLinks S (s, t') e).1, t ++ (onLinks S (s, t') e).2) := by
  unfold onLinks; exact foldl_react_base _ _ _ _

theorem act_base (p i : Nat) (net : String) (s : State σ M) (t t' : List (Out α M ω)) (a : Act M ω) :
    act S p i net (s, t ++ t') a = ((act S p i net (s, t') a).1, t ++ (act S p i net (s, t') a).2) := by
  cases a with
  | send m => exact onLinks_base _ _ _ _
  | out o => simp [act]

theorem acts_base (l : List (Act M ω)) (p i : Nat) (net : String) (s : State σ M) (t t' : List (Out α M ω)) :
    l.foldl (act S p i net) (s, t ++ t') = ((l.foldl (act S p i net) (s, t')).1, t ++ (l.foldl (act S p i net) (s, t')).2) := by
  induction l generalizing s t' with
  | nil => rfl
  | cons o l ih => rw [List.foldl_cons, List.foldl_cons, act_base, ih]

/-- One step of the whole, with the trace so far. -/
def step (S : Service σ α M ω) (r : State σ M × List (Out α M ω)) (e : Event α) : State σ M × List (Out α M ω) :=
  match e with
  | .create p i net =>
      match r.1.svc p i with
      | none => onLinks S (r.1.set p i (net, S.start i net), r.2) (.register p S.ty net i)
      | some _ => r
  | .call p i a =>
      match r.1.svc p i with
      | none => r
      | some x => (S.api x.2 a).2.foldl (act S p i x.1) (r.1.set p i (x.1, (S.api x.2 a).1), r.2 ++ [.call p i a])
  | .connect p q => onLinks S r (.connect p q)
  | .announce p q => onLinks S r (.announce p q)
  | .deliver p q => onLinks S r (.deliver p q)
  | .close p q => onLinks S r (.close p q)

theorem step_eq (r : State σ M × List (Out α M ω)) (e : Event α) : ((on S r.1 e).1, r.2 ++ (on S r.1 e).2) = step S r e := by
  obtain ⟨s, t⟩ := r
  have hb : ∀ s' e', ((onLinks S (s', []) e').1, t ++ (onLinks S (s', []) e').2) = onLinks S (s', t) e' := by
    intro s' e'
    have := onLinks_base (S := S) s' t [] e'
    rw [List.append_nil] at this
    exact this.symm
  cases e with
  | create p i net =>
      simp only [on, create, step]
      cases s.svc p i with
      | none => exact hb _ _
      | some x => simp
  | call p i a =>
      simp only [on, call, step]
      cases s.svc p i with
      | none => simp
      | some x => exact (acts_base _ _ _ _ _ t _).symm
  | connect p q => exact hb _ _
  | announce p q => exact hb _ _
  | deliver p q => exact hb _ _
  | close p q => exact hb _ _

theorem run_snoc (h : List (Event α)) (e : Event α) : run off S (h ++ [e]) = step S (run off S h) e := by rw [run_append, step_eq]

/-- Induction over histories. -/
theorem run_induction {P : State σ M × List (Out α M ω) → Prop} (h0 : P (init off, [])) (hs : ∀ r e, P r → P (step S r e)) (h : List (Event α)) : P (run off S h) := by
  rw [← List.reverse_reverse h]
  induction h.reverse with
  | nil => exact h0
  | cons e h ih => rw [List.reverse_cons, run_snoc]; exact hs _ _ ih

theorem step_ok {r : State σ M × List (Out α M ω)} (h : LinksOk off r) (e : Event α) : LinksOk off (step S r e) := by
  cases e with
  | create p i net =>
      simp only [step]
      split
      · exact onLinks_ok (by obtain ⟨lh, e⟩ := h; exact ⟨lh, e⟩) _
      · exact h
  | call p i a =>
      simp only [step]
      split
      · exact h
      · refine acts_ok _ ?_ _ _ _
        obtain ⟨lh, e⟩ := h
        refine ⟨lh, ?_⟩
        rw [e]
        simp [linkPart, State.set]
  | connect p q => exact onLinks_ok h _
  | announce p q => exact onLinks_ok h _
  | deliver p q => exact onLinks_ok h _
  | close p q => exact onLinks_ok h _

theorem run_links (h : List (Event α)) : LinksOk off (run off S h) :=
  run_induction (P := fun r => LinksOk off r) ⟨[], rfl⟩ (fun _ e hr => step_ok hr e) h

/-! ## One service -/

/-- What a service is told. -/
inductive In (α M : Type)
  | call (a : α)
  | recv (src : Nat × Nat) (m : M)

/-- What a service is told and does. -/
inductive View (α M ω : Type)
  | inp (x : In α M)
  | act (a : Act M ω)

/-- One step of one service. -/
def localStep (S : Service σ α M ω) (r : σ × List (View α M ω)) : In α M → σ × List (View α M ω)
  | .call a => ((S.api r.1 a).1, r.2 ++ .inp (.call a) :: (S.api r.1 a).2.map .act)
  | .recv src m => ((S.recv r.1 src m).1, r.2 ++ .inp (.recv src m) :: (S.recv r.1 src m).2.map (fun o => .act (.out o)))

/-- A service on its own. -/
def localRun (S : Service σ α M ω) (i : Nat) (net : String) (l : List (In α M)) : σ × List (View α M ω) := l.foldl (localStep S) (S.start i net, [])

theorem localRun_snoc (i : Nat) (net : String) (l : List (In α M)) (x : In α M) :
    localRun S i net (l ++ [x]) = localStep S (localRun S i net l) x := by simp [localRun, List.foldl_append]

def viewOf (p i : Nat) : Out α M ω → Option (View α M ω)
  | .call p' i' a => if p' = p ∧ i' = i then some (.inp (.call a)) else none
  | .out p' i' o => if p' = p ∧ i' = i then some (.act (.out o)) else none
  | .link (.received p' i' _ _ q v) => if p' = p ∧ i' = i then some (.inp (.recv (q, v.1) v.2)) else none
  | .link (.published p' i' _ _ v) => if p' = p ∧ i' = i then some (.act (.send v.2)) else none
  | _ => none

/-- What service `i` of participant `p` is told and does. -/
def view (p i : Nat) (t : List (Out α M ω)) : List (View α M ω) := t.filterMap (viewOf p i)

theorem view_append (p i : Nat) (a b : List (Out α M ω)) : view p i (a ++ b) = view p i a ++ view p i b := by simp [view]

def inputs (v : List (View α M ω)) : List (In α M) := v.filterMap (fun | .inp x => some x | _ => none)

theorem inputs_append (a b : List (View α M ω)) : inputs (a ++ b) = inputs a ++ inputs b := by simp [inputs]

theorem inputs_acts (l : List (Act M ω)) : inputs (l.map .act : List (View α M ω)) = [] := by
  induction l with
  | nil => rfl
  | cons x l ih => simpa [inputs] using ih

theorem inputs_outs (l : List ω) : inputs (l.map (fun o => .act (.out o)) : List (View α M ω)) = [] := by
  induction l with
  | nil => rfl
  | cons x l ih => simpa [inputs] using ih

theorem view_outs_self (p i : Nat) (l : List ω) : view p i (l.map (.out p i) : List (Out α M ω)) = l.map (fun o => .act (.out o)) := by
  induction l with
  | nil => rfl
  | cons x l ih => rw [List.map_cons, List.map_cons, ← ih]; simp [view, viewOf]

theorem view_outs_other {p i p' i' : Nat} (hne : ¬ (p' = p ∧ i' = i)) (l : List ω) : view p i (l.map (.out p' i') : List (Out α M ω)) = [] := by
  induction l with
  | nil => rfl
  | cons x l ih => rw [List.map_cons]; simpa [view, viewOf, hne] using ih

/-- Every service has seen a run of its own; service `i` of `p` is about to do `rest`. -/
structure Ok (S : Service σ α M ω) (p i : Nat) (rest : List (Act M ω)) (r : State σ M × List (Out α M ω)) : Prop where
  none : ∀ q j, r.1.svc q j = none → view q j r.2 = []
  some : ∀ q j net st, r.1.svc q j = some (net, st) →
    localRun S j net (inputs (view q j r.2)) = (st, view q j r.2 ++ (if q = p ∧ j = i then rest.map .act else []))
  reg : ∀ q ty net j, Links.Out.registered q ty net j ∈ linkPart r.2 → ty = S.ty ∧ ∃ st, r.1.svc q j = Option.some (net, st)
  pub : ∀ q j ty net v, Links.Out.published q j ty net v ∈ linkPart r.2 → ty = S.ty ∧ v.1 = j ∧ ∃ st, r.1.svc q j = Option.some (net, st)

theorem Ok.some_other {p i : Nat} {rest : List (Act M ω)} {r : State σ M × List (Out α M ω)} (h : Ok S p i rest r) {q j : Nat} {net : String} {st : σ}
    (e : r.1.svc q j = Option.some (net, st)) (hne : ¬ (q = p ∧ j = i)) : localRun S j net (inputs (view q j r.2)) = (st, view q j r.2) := by
  have := h.some q j net st e
  rw [if_neg hne, List.append_nil] at this
  exact this

/-- The output of the links tells no service anything it is not prepared for. -/
def Fine (s : State σ M) (p i : Nat) (rest : List (Act M ω)) : Links.Out (Nat × M) → Prop
  | .published .. => False
  | .registered .. => False
  | .received q j _ _ _ _ => s.svc q j ≠ none ∧ (¬ (q = p ∧ j = i) ∨ rest = [])
  | _ => True

theorem Fine.react {s : State σ M} {p i : Nat} {rest : List (Act M ω)} {o : Links.Out (Nat × M)} (h : Fine s p i rest o)
    (t : List (Out α M ω)) (o' : Links.Out (Nat × M)) : Fine (react S (s, t) o').1 p i rest o := by
  cases o with
  | received q j ty net p' v =>
      refine ⟨?_, h.2⟩
      unfold Bus.react
      cases o' with
      | received q' j' ty' net' p'' v' =>
          simp only
          split
          · exact h.1
          · simp only [State.set]
            split
            · simp
            · exact h.1
      | _ => exact h.1
  | published => exact h
  | registered => exact h
  | _ => trivial

/-- An output that concerns no service. -/
theorem Ok.quiet {p i : Nat} {rest : List (Act M ω)} {s : State σ M} {t : List (Out α M ω)} (h : Ok S p i rest (s, t)) (o : Links.Out (Nat × M))
    (hv : ∀ q j, view q j [(Out.link o : Out α M ω)] = []) (hr : ∀ q ty net j, o ≠ .registered q ty net j) (hp : ∀ q j ty net v, o ≠ .published q j ty net v) :
    Ok S p i rest (s, t ++ [.link o]) := by
  have e : ∀ q j, view q j (t ++ [Out.link o]) = view q j t := by intro q j; rw [view_append, hv, List.append_nil]
  refine ⟨?_, ?_, ?_, ?_⟩
  · intro q j hn; rw [e]; exact h.none q j hn
  · intro q j net st hs; simp only [e]; exact h.some q j net st hs
  · intro q ty net j hm
    rw [linkPart_append, List.mem_append] at hm
    rcases hm with hm | hm
    · exact h.reg q ty net j hm
    · exact absurd (List.mem_singleton.1 hm).symm (hr q ty net j)
  · intro q j ty net v hm
    rw [linkPart_append, List.mem_append] at hm
    rcases hm with hm | hm
    · exact h.pub q j ty net v hm
    · exact absurd (List.mem_singleton.1 hm).symm (hp q j ty net v)

theorem linkPart_link_outs (o : Links.Out (Nat × M)) (q j : Nat) (l : List ω) : linkPart (.link o :: l.map (.out q j) : List (Out α M ω)) = [o] := by
  rw [show ∀ (x : Out α M ω) l, x :: l = [x] ++ l from fun _ _ => rfl, linkPart_append, linkPart_outs]; rfl

theorem Ok.received {p i : Nat} {rest : List (Act M ω)} {s : State σ M} {t : List (Out α M ω)} (h : Ok S p i rest (s, t)) {q j : Nat} {ty : MsgType}
    {net : String} {p' : Nat} {v : Nat × M} {x : String × σ} (hx : s.svc q j = Option.some x) (hrest : ¬ (q = p ∧ j = i) ∨ rest = []) :
    Ok S p i rest (s.set q j (x.1, (S.recv x.2 (p', v.1) v.2).1),
      t ++ .link (.received q j ty net p' v) :: (S.recv x.2 (p', v.1) v.2).2.map (.out q j)) := by
  have hself : view q j (.link (.received q j ty net p' v) :: (S.recv x.2 (p', v.1) v.2).2.map (.out q j) : List (Out α M ω)) =
      .inp (.recv (p', v.1) v.2) :: (S.recv x.2 (p', v.1) v.2).2.map (fun o => .act (.out o)) := by
    rw [← view_outs_self q j]; simp [view, viewOf]
  have hother : ∀ a b, ¬ (a = q ∧ b = j) →
      view a b (.link (.received q j ty net p' v) :: (S.recv x.2 (p', v.1) v.2).2.map (.out q j) : List (Out α M ω)) = [] := by
    intro a b hne
    have hne' : ¬ (q = a ∧ j = b) := fun ⟨h1, h2⟩ => hne ⟨h1.symm, h2.symm⟩
    rw [← view_outs_other hne' (S.recv x.2 (p', v.1) v.2).2]; simp [view, viewOf, hne']
  refine ⟨?_, ?_, ?_, ?_⟩
  · intro a b hn
    simp only [State.set] at hn
    split at hn
    · cases hn
    · rename_i hne
      rw [view_append, hother a b hne, List.append_nil]
      exact h.none a b hn
  · intro a b net' st hs
    simp only [State.set] at hs
    split at hs
    · rename_i hab
      obtain ⟨rfl, rfl⟩ := hab
      injection hs with hs
      rw [view_append, hself, inputs_append]
      have e1 : inputs (.inp (.recv (p', v.1) v.2) :: (S.recv x.2 (p', v.1) v.2).2.map (fun o => .act (.out o)) : List (View α M ω)) = [.recv (p', v.1) v.2] := by
        rw [show ∀ (x : View α M ω) l, x :: l = [x] ++ l from fun _ _ => rfl, inputs_append, inputs_outs]; rfl
      have e0 := h.some a b x.1 x.2 hx
      have er : (if a = p ∧ b = i then rest.map (View.act : Act M ω → View α M ω) else []) = [] := by
        rcases hrest with hr | hr
        · rw [if_neg hr]
        · rw [hr]; simp
      rw [er, List.append_nil] at e0 ⊢
      injection hs with hs1 hs2
      rw [e1, localRun_snoc, ← hs1, e0, ← hs2]
      rfl
    · rename_i hne
      rw [view_append, hother a b hne, List.append_nil]
      exact h.some a b net' st hs
  · intro a ty' net' b hm
    rw [linkPart_append, linkPart_link_outs, List.mem_append] at hm
    rcases hm with hm | hm
    · obtain ⟨h1, st, h2⟩ := h.reg a ty' net' b hm
      refine ⟨h1, ?_⟩
      simp only [State.set]
      split
      · rename_i hab
        obtain ⟨rfl, rfl⟩ := hab
        have h2' : s.svc a b = Option.some (net', st) := h2
        rw [hx] at h2'
        injection h2' with h2'
        exact ⟨_, by rw [h2']⟩
      · exact ⟨st, h2⟩
    · simp at hm
  · intro a b ty' net' w hm
    rw [linkPart_append, linkPart_link_outs, List.mem_append] at hm
    rcases hm with hm | hm
    · obtain ⟨h1, h3, st, h2⟩ := h.pub a b ty' net' w hm
      refine ⟨h1, h3, ?_⟩
      simp only [State.set]
      split
      · rename_i hab
        obtain ⟨rfl, rfl⟩ := hab
        have h2' : s.svc a b = Option.some (net', st) := h2
        rw [hx] at h2'
        injection h2' with h2'
        exact ⟨_, by rw [h2']⟩
      · exact ⟨st, h2⟩
    · simp at hm

theorem Ok.react {p i : Nat} {rest : List (Act M ω)} {s : State σ M} {t : List (Out α M ω)} (h : Ok S p i rest (s, t)) {o : Links.Out (Nat × M)}
    (hf : Fine s p i rest o) : Ok S p i rest (react S (s, t) o) := by
  cases o with
  | received q j ty net p' v =>
      simp only [Bus.react]
      cases hx : s.svc q j with
      | none => exact absurd hx hf.1
      | some x => exact h.received hx hf.2
  | published => exact hf.elim
  | registered => exact hf.elim
  | accepted => exact h.quiet _ (by intro q j; rfl) (by simp) (by simp)
  | arrived => exact h.quiet _ (by intro q j; rfl) (by simp) (by simp)
  | garbled => exact h.quiet _ (by intro q j; rfl) (by simp) (by simp)
  | closed => exact h.quiet _ (by intro q j; rfl) (by simp) (by simp)

theorem Ok.reacts {p i : Nat} {rest : List (Act M ω)} (l : List (Links.Out (Nat × M))) {r : State σ M × List (Out α M ω)} (h : Ok S p i rest r)
    (hf : ∀ o ∈ l, Fine r.1 p i rest o) : Ok S p i rest (l.foldl (Bus.react S) r) := by
  induction l generalizing r with
  | nil => exact h
  | cons o l ih =>
      rw [List.foldl_cons]
      refine ih (h.react (hf o (by simp))) ?_
      intro o' ho'
      exact (hf o' (by simp [ho'])).react r.2 o

/-- The links do not matter to `Ok`. -/
theorem Ok.links {p i : Nat} {rest : List (Act M ω)} {r : State σ M × List (Out α M ω)} (h : Ok S p i rest r) (l : Links.State (Nat × M)) :
    Ok S p i rest ({ r.1 with links := l }, r.2) := ⟨h.none, h.some, h.reg, h.pub⟩

theorem Ok.nobody {p i : Nat} {r : State σ M × List (Out α M ω)} (h : Ok S p i [] r) (p' i' : Nat) : Ok S p' i' [] r := by
  refine ⟨h.none, ?_, h.reg, h.pub⟩
  intro q j net st e
  have := h.some q j net st e
  simpa using this

/-- A receiver of a link is a service. -/
theorem local_svc {p i : Nat} {rest : List (Act M ω)} {r : State σ M × List (Out α M ω)} (h : Ok S p i rest r) (hl : LinksOk off r) {q j : Nat} {ty : MsgType} {net : String}
    (hm : j ∈ (r.1.links.link q ty net).locals) : r.1.svc q j ≠ none := by
  obtain ⟨lh, e⟩ := hl
  have := (Links.run_R (off := off) q j ty net 0 lh).loc
  rw [e] at this
  obtain ⟨-, st, e2⟩ := h.reg q ty net j (this.1 hm)
  rw [e2]; simp

/-- The links tell only services that are there, except for registrations and what is sent. -/
theorem on_fine {r : State σ M × List (Out α M ω)} (h : Ok S 0 0 [] r) (hl : LinksOk off r) (e : Links.Event (Nat × M))
    (he : (∀ p ty net i, e ≠ .register p ty net i) ∧ ∀ p i ty net v, e ≠ .send p i ty net v) :
    ∀ o ∈ (Links.on r.1.links e).2, Fine r.1 0 0 ([] : List (Act M ω)) o := by
  intro o ho
  cases e with
  | register p ty net i => exact absurd rfl (he.1 p ty net i)
  | send p i ty net v => exact absurd rfl (he.2 p i ty net v)
  | connect p q => cases ho
  | announce p q => cases ho
  | close p q =>
      simp only [Links.on, Links.close] at ho
      split at ho
      · simp at ho; subst ho; trivial
      · cases ho
  | deliver p q =>
      simp only [Links.on, Links.deliver] at ho
      split at ho
      · cases ho
      · split at ho
        · rename_i w ws hc ho'
          cases w with
          | subscribe idx net sd =>
              simp only [Links.handle] at ho
              have key : ∀ (l : List MsgType) (r' : Links.State (Nat × M) × List (Links.Out (Nat × M))), (∀ o ∈ r'.2, Fine r.1 0 0 ([] : List (Act M ω)) o) →
                  ∀ o ∈ (l.foldl (Links.subscribeStep q p idx net sd) r').2, Fine r.1 0 0 ([] : List (Act M ω)) o := by
                intro l
                induction l with
                | nil => intro r' hr'; exact hr'
                | cons ty l ih =>
                    intro r' hr'
                    refine ih _ ?_
                    unfold Links.subscribeStep
                    split
                    · simp only
                      split
                      · exact hr'
                      · intro o ho
                        rw [List.mem_append] at ho
                        rcases ho with ho | ho
                        · exact hr' o ho
                        · simp at ho; subst ho; trivial
                    · exact hr'
              exact key _ _ (by simp) o ho
          | data idx ty v =>
              simp only [Links.handle] at ho
              split at ho
              · cases ho
              · split at ho
                · simp only [List.mem_cons, List.mem_map] at ho
                  rcases ho with ho | ⟨j, hj, ho⟩
                  · subst ho; trivial
                  · subst ho
                    exact ⟨local_svc h hl hj, Or.inr rfl⟩
                · simp at ho; subst ho; trivial
        · cases ho

theorem onLinks_Ok {r : State σ M × List (Out α M ω)} (h : Ok S 0 0 [] r) (hl : LinksOk off r) (e : Links.Event (Nat × M))
    (he : (∀ p ty net i, e ≠ .register p ty net i) ∧ ∀ p i ty net v, e ≠ .send p i ty net v) : Ok S 0 0 [] (onLinks S r e) := by
  unfold onLinks
  refine (h.links _).reacts _ ?_
  exact on_fine h hl e he

/-- A service sends. -/
theorem send_Ok {r : State σ M × List (Out α M ω)} {p i : Nat} {rest : List (Act M ω)} {m : M} {net : String} {st : σ}
    (hS : Links.selfDeliveryEnforced S.ty = false) (h : Ok S p i (.send m :: rest) r) (hl : LinksOk off r) (hx : r.1.svc p i = Option.some (net, st)) :
    Ok S p i rest (onLinks S r (.send p i S.ty net (i, m))) := by
  unfold onLinks
  have e : (Links.on r.1.links (.send p i S.ty net (i, m))).2 =
    .published p i S.ty net (i, m) :: ((r.1.links.link p S.ty net).selfReceivers S.ty i).map (fun x => .received p x S.ty net p (i, m)) := rfl
  rw [e, List.foldl_cons]
  have hpub : Ok S p i rest (react S ({ r.1 with links := (Links.on r.1.links (.send p i S.ty net (i, m))).1 }, r.2) (.published p i S.ty net (i, m))) := by
    simp only [react]
    have hv : view p i [(Out.link (.published p i S.ty net (i, m)) : Out α M ω)] = [.act (.send m)] := by simp [view, viewOf]
    have ho : ∀ q j, ¬ (q = p ∧ j = i) → view q j [(Out.link (.published p i S.ty net (i, m)) : Out α M ω)] = [] := by
      intro q j hne
      have hne' : ¬ (p = q ∧ i = j) := fun ⟨h1, h2⟩ => hne ⟨h1.symm, h2.symm⟩
      simp [view, viewOf, hne']
    refine ⟨?_, ?_, ?_, ?_⟩
    · intro q j hn
      by_cases hqj : q = p ∧ j = i
      · obtain ⟨rfl, rfl⟩ := hqj
        have hn' : r.1.svc q j = none := hn
        rw [hx] at hn'; cases hn'
      · rw [view_append, ho q j hqj, List.append_nil]; exact h.none q j hn
    · intro q j net' st' hs
      have := h.some q j net' st' hs
      by_cases hqj : q = p ∧ j = i
      · obtain ⟨rfl, rfl⟩ := hqj
        rw [view_append, hv, inputs_append]
        have e1 : inputs ([.act (.send m)] : List (View α M ω)) = [] := rfl
        rw [e1, List.append_nil, this]
        simp
      · rw [view_append, ho q j hqj, List.append_nil, if_neg hqj]
        rw [if_neg hqj] at this
        exact this
    · intro q ty' net' j hm
      rw [linkPart_append, List.mem_append] at hm
      rcases hm with hm | hm
      · exact h.reg q ty' net' j hm
      · simp [linkPart] at hm
    · intro q j ty' net' v hm
      rw [linkPart_append, List.mem_append] at hm
      rcases hm with hm | hm
      · exact h.pub q j ty' net' v hm
      · simp [linkPart] at hm
        obtain ⟨rfl, rfl, rfl, rfl, rfl⟩ := hm
        exact ⟨rfl, rfl, st, hx⟩
  refine hpub.reacts _ ?_
  intro o ho
  rw [List.mem_map] at ho
  obtain ⟨j, hj, rfl⟩ := ho
  rw [Links.mem_selfReceivers] at hj
  refine ⟨?_, Or.inl ?_⟩
  · simp only [react]; exact local_svc h hl hj.1
  · rintro ⟨-, rfl⟩
    rcases hj.2.2 with h' | h'
    · rw [hS] at h'; cases h'
    · exact h' rfl

theorem react_svc (r : State σ M × List (Out α M ω)) (o : Links.Out (Nat × M)) (q j : Nat) :
    (react S r o).1.svc q j = none ↔ r.1.svc q j = none := by
  unfold react
  cases o with
  | received q' j' ty net p v =>
      simp only
      cases hx : r.1.svc q' j' with
      | none => exact Iff.rfl
      | some x =>
          simp only [State.set]
          split
          · rename_i hab; obtain ⟨rfl, rfl⟩ := hab; simp [hx]
          · exact Iff.rfl
  | _ => exact Iff.rfl

/-- The network of a service. -/
def netOf (s : State σ M) (q j : Nat) : Option String := (s.svc q j).map (·.1)

theorem react_net (r : State σ M × List (Out α M ω)) (o : Links.Out (Nat × M)) (q j : Nat) : netOf (react S r o).1 q j = netOf r.1 q j := by
  unfold react netOf
  cases o with
  | received q' j' ty net p v =>
      simp only
      cases hx : r.1.svc q' j' with
      | none => rfl
      | some x =>
          simp only [State.set]
          split
          · rename_i hab; obtain ⟨rfl, rfl⟩ := hab; simp [hx]
          · rfl
  | _ => rfl

theorem reacts_net (l : List (Links.Out (Nat × M))) (r : State σ M × List (Out α M ω)) (q j : Nat) : netOf (l.foldl (react S) r).1 q j = netOf r.1 q j := by
  induction l generalizing r with
  | nil => rfl
  | cons o l ih => rw [List.foldl_cons, ih, react_net]

theorem onLinks_net (r : State σ M × List (Out α M ω)) (e : Links.Event (Nat × M)) (q j : Nat) : netOf (onLinks S r e).1 q j = netOf r.1 q j := by
  unfold onLinks; rw [reacts_net]; rfl

theorem act_net (p i : Nat) (net : String) (r : State σ M × List (Out α M ω)) (a : Act M ω) (q j : Nat) : netOf (act S p i net r a).1 q j = netOf r.1 q j := by
  cases a with
  | send m => exact onLinks_net _ _ _ _
  | out o => rfl

theorem netOf_some {s : State σ M} {q j : Nat} {net : String} : netOf s q j = some net ↔ ∃ st, s.svc q j = some (net, st) := by
  unfold netOf
  cases s.svc q j with
  | none => simp
  | some x =>
      simp only [Option.map_some, Option.some.injEq]
      constructor
      · intro h; exact ⟨x.2, by rw [← h]⟩
      · rintro ⟨st, rfl⟩; rfl

/-- A service does something other than sending. -/
theorem out_Ok {s : State σ M} {t : List (Out α M ω)} {p i : Nat} {rest : List (Act M ω)} {o : ω} {x : String × σ} (h : Ok S p i (.out o :: rest) (s, t))
    (hx : s.svc p i = Option.some x) : Ok S p i rest (s, t ++ [.out p i o]) := by
  have hv : view p i [(Out.out p i o : Out α M ω)] = [.act (.out o)] := by simp [view, viewOf]
  have ho : ∀ q j, ¬ (q = p ∧ j = i) → view q j [(Out.out p i o : Out α M ω)] = [] := by
    intro q j hne
    have hne' : ¬ (p = q ∧ i = j) := fun ⟨h1, h2⟩ => hne ⟨h1.symm, h2.symm⟩
    simp [view, viewOf, hne']
  have hl : linkPart (t ++ [(Out.out p i o : Out α M ω)]) = linkPart t := by simp [linkPart]
  refine ⟨?_, ?_, ?_, ?_⟩
  · intro q j hn
    by_cases hqj : q = p ∧ j = i
    · obtain ⟨rfl, rfl⟩ := hqj
      have hn' : s.svc q j = none := hn
      rw [hx] at hn'; cases hn'
    · rw [view_append, ho q j hqj, List.append_nil]; exact h.none q j hn
  · intro q j net' st' hs
    have := h.some q j net' st' hs
    by_cases hqj : q = p ∧ j = i
    · obtain ⟨rfl, rfl⟩ := hqj
      rw [view_append, hv, inputs_append]
      have e1 : inputs ([.act (.out o)] : List (View α M ω)) = [] := rfl
      rw [e1, List.append_nil, this]
      simp
    · rw [view_append, ho q j hqj, List.append_nil, if_neg hqj]
      rw [if_neg hqj] at this
      exact this
  · simp only [hl]; exact h.reg
  · simp only [hl]; exact h.pub

theorem acts_Ok (hS : Links.selfDeliveryEnforced S.ty = false) (l : List (Act M ω)) {r : State σ M × List (Out α M ω)} {p i : Nat} {net : String}
    (h : Ok S p i l r) (hl : LinksOk off r) (hx : netOf r.1 p i = some net) : Ok S p i [] (l.foldl (act S p i net) r) := by
  induction l generalizing r with
  | nil => exact h
  | cons a l ih =>
      rw [List.foldl_cons]
      have hx' := netOf_some.1 hx
      obtain ⟨st, hst⟩ := hx'
      refine ih ?_ (act_ok hl p i net a) (by rw [act_net]; exact hx)
      cases a with
      | send m => exact send_Ok hS h hl hst
      | out o => exact out_Ok h hst

theorem create_Ok {s : State σ M} {t : List (Out α M ω)} (h : Ok S 0 0 [] (s, t)) (p i : Nat) (net : String) (hn : s.svc p i = none) :
    Ok S 0 0 [] (onLinks S (s.set p i (net, S.start i net), t) (.register p S.ty net i)) := by
  unfold onLinks
  have e : (Links.on (s.set p i (net, S.start i net)).links (.register p S.ty net i)).2 = [.registered p S.ty net i] := rfl
  rw [e, List.foldl_cons, List.foldl_nil]
  simp only [react]
  have hv : ∀ q j, view q j (t ++ [(Out.link (.registered p S.ty net i) : Out α M ω)]) = view q j t := by
    intro q j; rw [view_append]; simp [view, viewOf]
  refine ⟨?_, ?_, ?_, ?_⟩
  · intro q j hq
    simp only [State.set] at hq
    split at hq
    · cases hq
    · simp only [hv]; exact h.none q j hq
  · intro q j net' st hq
    simp only [State.set] at hq
    simp only [hv]
    split at hq
    · rename_i hab
      obtain ⟨rfl, rfl⟩ := hab
      injection hq with hq
      injection hq with h1 h2
      subst h1 h2
      rw [h.none q j hn]
      simp [inputs, localRun]
    · exact h.some q j net' st hq
  · intro q ty' net' j hm
    simp only at hm
    rw [linkPart_append, List.mem_append] at hm
    simp only [State.set]
    rcases hm with hm | hm
    · obtain ⟨h1, st, h2⟩ := h.reg q ty' net' j hm
      refine ⟨h1, st, ?_⟩
      split
      · rename_i hab
        obtain ⟨rfl, rfl⟩ := hab
        have h2' : s.svc q j = Option.some (net', st) := h2
        rw [hn] at h2'; cases h2'
      · exact h2
    · simp [linkPart] at hm
      obtain ⟨rfl, rfl, rfl, rfl⟩ := hm
      exact ⟨rfl, S.start j net', by simp⟩
  · intro q j ty' net' v hm
    simp only at hm
    rw [linkPart_append, List.mem_append] at hm
    simp only [State.set]
    rcases hm with hm | hm
    · obtain ⟨h1, h3, st, h2⟩ := h.pub q j ty' net' v hm
      refine ⟨h1, h3, st, ?_⟩
      split
      · rename_i hab
        obtain ⟨rfl, rfl⟩ := hab
        have h2' : s.svc q j = Option.some (net', st) := h2
        rw [hn] at h2'; cases h2'
      · exact h2
    · simp [linkPart] at hm

theorem call_Ok {s : State σ M} {t : List (Out α M ω)} (h : Ok S 0 0 [] (s, t)) (p i : Nat) (a : α) {x : String × σ} (hx : s.svc p i = some x) :
    Ok S p i (S.api x.2 a).2 (s.set p i (x.1, (S.api x.2 a).1), t ++ [.call p i a]) := by
  have hv : view p i [(Out.call p i a : Out α M ω)] = [.inp (.call a)] := by simp [view, viewOf]
  have ho : ∀ q j, ¬ (q = p ∧ j = i) → view q j [(Out.call p i a : Out α M ω)] = [] := by
    intro q j hne
    have hne' : ¬ (p = q ∧ i = j) := fun ⟨h1, h2⟩ => hne ⟨h1.symm, h2.symm⟩
    simp [view, viewOf, hne']
  have hl : linkPart (t ++ [(Out.call p i a : Out α M ω)]) = linkPart t := by simp [linkPart]
  have hnet : ∀ q j net, (∃ st, s.svc q j = Option.some (net, st)) → ∃ st, (s.set p i (x.1, (S.api x.2 a).1)).svc q j = Option.some (net, st) := by
    rintro q j net ⟨st, e⟩
    simp only [State.set]
    split
    · rename_i hab
      obtain ⟨rfl, rfl⟩ := hab
      rw [hx] at e
      injection e with e
      exact ⟨_, by rw [e]⟩
    · exact ⟨st, e⟩
  refine ⟨?_, ?_, ?_, ?_⟩
  · intro q j hq
    simp only [State.set] at hq
    split at hq
    · cases hq
    · rename_i hne
      rw [view_append, ho q j hne, List.append_nil]; exact h.none q j hq
  · intro q j net' st hq
    simp only [State.set] at hq
    split at hq
    · rename_i hab
      obtain ⟨rfl, rfl⟩ := hab
      injection hq with hq
      injection hq with h1 h2
      have e0 := h.some q j x.1 x.2 hx
      have e0' : localRun S j x.1 (inputs (view q j t)) = (x.2, view q j t) := by rw [e0]; simp
      rw [view_append, hv, inputs_append]
      have e1 : inputs ([.inp (.call a)] : List (View α M ω)) = [.call a] := rfl
      rw [e1, localRun_snoc, ← h1, e0', ← h2]
      simp [localStep]
    · rename_i hne
      rw [view_append, ho q j hne, List.append_nil, if_neg hne, List.append_nil]
      have := h.some q j net' st hq
      rw [this]; simp
  · intro q ty' net' j hm
    simp only [hl] at hm
    exact ⟨(h.reg q ty' net' j hm).1, hnet q j net' (h.reg q ty' net' j hm).2⟩
  · intro q j ty' net' v hm
    simp only [hl] at hm
    exact ⟨(h.pub q j ty' net' v hm).1, (h.pub q j ty' net' v hm).2.1, hnet q j net' (h.pub q j ty' net' v hm).2.2⟩

theorem step_Ok (hS : Links.selfDeliveryEnforced S.ty = false) {r : State σ M × List (Out α M ω)} (h : Ok S 0 0 [] r) (hl : LinksOk off r) (e : Event α) :
    Ok S 0 0 [] (step S r e) := by
  cases e with
  | create p i net =>
      simp only [step]
      cases hx : r.1.svc p i with
      | none => exact create_Ok h p i net hx
      | some x => exact h
  | call p i a =>
      simp only [step]
      cases hx : r.1.svc p i with
      | none => exact h
      | some x =>
          refine (acts_Ok (off := off) hS _ (call_Ok h p i a hx) ?_ ?_).nobody 0 0
          · obtain ⟨lh, e⟩ := hl
            refine ⟨lh, ?_⟩
            rw [e]
            simp [linkPart, State.set]
          · simp [netOf, State.set]
  | connect p q => exact onLinks_Ok h hl _ ⟨by simp, by simp⟩
  | announce p q => exact onLinks_Ok h hl _ ⟨by simp, by simp⟩
  | deliver p q => exact onLinks_Ok h hl _ ⟨by simp, by simp⟩
  | close p q => exact onLinks_Ok h hl _ ⟨by simp, by simp⟩

theorem init_Ok : Ok S 0 0 [] ((init off, []) : State σ M × List (Out α M ω)) := by
  refine ⟨fun _ _ _ => rfl, ?_, ?_, ?_⟩
  · intro q j net st e; simp [init] at e
  · intro q ty net j hm; simp [linkPart] at hm
  · intro q j ty net v hm; simp [linkPart] at hm

theorem run_Ok (hS : Links.selfDeliveryEnforced S.ty = false) (h : List (Event α)) : Ok S 0 0 [] (run off S h) := by
  have : Ok S 0 0 [] (run off S h) ∧ LinksOk off (run off S h) :=
    run_induction (P := fun r => Ok S 0 0 [] r ∧ LinksOk off r) ⟨init_Ok, ⟨[], rfl⟩⟩ (fun _ e hr => ⟨step_Ok hS hr.1 hr.2 e, step_ok hr.2 e⟩) h
  exact this.1

/-- The view of a service is a run of its own. -/
theorem view_run (hS : Links.selfDeliveryEnforced S.ty = false) (h : List (Event α)) {q j : Nat} {net : String} {st : σ}
    (e : (run off S h).1.svc q j = some (net, st)) :
    localRun S j net (inputs (view q j (trace off S h))) = (st, view q j (trace off S h)) := by
  have := (run_Ok (off := off) hS h).some q j net st e
  simpa [trace] using this

/-! ## Between services -/

/-- What a service sends. -/
def sends (v : List (View α M ω)) : List M := v.filterMap (fun | .act (.send m) => some m | _ => none)

/-- What a service receives from another one. -/
def recvs (src : Nat × Nat) (v : List (View α M ω)) : List M := v.filterMap (fun | .inp (.recv s m) => if s = src then some m else none | _ => none)

theorem sends_append (a b : List (View α M ω)) : sends (a ++ b) = sends a ++ sends b := by simp [sends]
theorem recvs_append (src : Nat × Nat) (a b : List (View α M ω)) : recvs src (a ++ b) = recvs src a ++ recvs src b := by simp [recvs]

/-- The messages of service `i` among the values on a link. -/
def ofSvc (i : Nat) (l : List (Nat × M)) : List M := l.filterMap (fun v => if v.1 = i then some v.2 else none)

theorem ofSvc_append (i : Nat) (a b : List (Nat × M)) : ofSvc i (a ++ b) = ofSvc i a ++ ofSvc i b := by simp [ofSvc]

theorem filterMap_filterMap_eq {A B C D : Type} {f : A → Option B} {g : B → Option C} {f' : A → Option D} {g' : D → Option C} (l : List A)
    (h : ∀ x ∈ l, (f x).bind g = (f' x).bind g') : (l.filterMap f).filterMap g = (l.filterMap f').filterMap g' := by
  rw [List.filterMap_filterMap, List.filterMap_filterMap]
  exact Links.filterMap_congr h

/-- What a service sends is what is published in its name. -/
theorem published_sends (hS : Links.selfDeliveryEnforced S.ty = false) (h : List (Event α)) {p i : Nat} {net : String}
    (hi : netOf (run off S h).1 p i = some net) (u : List (Out α M ω)) (hu : u ⊆ trace off S h) :
    ofSvc i (Links.Spec.published p S.ty net (linkPart u)) = sends (view p i u) := by
  unfold ofSvc Links.Spec.published sends view linkPart
  rw [List.filterMap_filterMap]
  refine filterMap_filterMap_eq u ?_
  intro o ho
  cases o with
  | link o =>
      have hm : o ∈ linkPart (trace off S h) := by
        unfold linkPart; rw [List.mem_filterMap]; exact ⟨_, hu ho, rfl⟩
      cases o with
      | published q j ty' net' v =>
          obtain ⟨h1, h2, st, h3⟩ := (run_Ok (off := off) hS h).pub q j ty' net' v hm
          have h3' : netOf (run off S h).1 q j = some net' := netOf_some.2 ⟨st, h3⟩
          by_cases hq : q = p
          · by_cases hj : j = i
            · subst hq hj
              rw [hi] at h3'
              injection h3' with h3'
              simp [viewOf, h1, h2, h3']
            · by_cases hn : net' = net
              · simp [viewOf, hq, hj, h1, h2, hn]
              · simp [viewOf, hq, hj, h1, hn]
          · simp [viewOf, hq]
      | received q j ty' net' p' v =>
          simp only [viewOf, Option.bind_some, Option.bind_none]
          split <;> rfl
      | _ => rfl
  | call q j a => simp only [viewOf]; split <;> rfl
  | out q j o => simp only [viewOf]; split <;> rfl

/-- What is received at a service was published, and the service is there. -/
theorem received_published (lh : List (Links.Event (Nat × M))) {q j : Nat} {ty : MsgType} {net : String} {p : Nat} {v : Nat × M}
    (hm : Links.Out.received q j ty net p v ∈ (Links.Spec.run off lh).2) : Links.Out.registered q ty net j ∈ (Links.Spec.run off lh).2 := by
  have r := Links.run_R (off := off) q j ty net p lh
  by_cases hreg : Links.Out.registered q ty net j ∈ (Links.Spec.run off lh).2
  · exact hreg
  · have := r.notYet hreg
    have hin : v ∈ Links.Spec.received q j ty net p (Links.Spec.run off lh).2 := by
      unfold Links.Spec.received; rw [List.mem_filterMap]; exact ⟨_, hm, by simp⟩
    rw [this] at hin; cases hin

/-- What a service receives is what the link delivers to it. -/
theorem received_recvs (hS : Links.selfDeliveryEnforced S.ty = false) (h : List (Event α)) {p i q j : Nat} {net : String}
    (hj : netOf (run off S h).1 q j = some net) :
    ofSvc i (Links.Spec.received q j S.ty net p (linkPart (trace off S h))) = recvs (p, i) (view q j (trace off S h)) := by
  unfold ofSvc Links.Spec.received recvs view linkPart
  rw [List.filterMap_filterMap]
  refine filterMap_filterMap_eq _ ?_
  intro o ho
  cases o with
  | link o =>
      have hm : o ∈ linkPart (trace off S h) := by
        unfold linkPart; rw [List.mem_filterMap]; exact ⟨_, ho, rfl⟩
      cases o with
      | received q' j' ty' net' p' v =>
          by_cases hqj : q' = q ∧ j' = j
          · obtain ⟨rfl, rfl⟩ := hqj
            obtain ⟨lh, e⟩ := run_links (off := off) (S := S) h
            have hreg : Links.Out.registered q' ty' net' j' ∈ linkPart (trace off S h) := by
              have e2 : linkPart (trace off S h) = (Links.Spec.run off lh).2 := by rw [e]; rfl
              rw [e2] at hm ⊢
              exact received_published lh hm
            obtain ⟨h1, st, h3⟩ := (run_Ok (off := off) hS h).reg q' ty' net' j' hreg
            have h3' : netOf (run off S h).1 q' j' = some net' := netOf_some.2 ⟨st, h3⟩
            rw [hj] at h3'
            injection h3' with h3'
            by_cases hp : p' = p
            · simp [viewOf, h1, h3', hp]
            · simp [viewOf, hp]
          · have hne : ¬ (q' = q ∧ j' = j ∧ ty' = S.ty ∧ net' = net ∧ p' = p) := fun hh => hqj ⟨hh.1, hh.2.1⟩
            simp [viewOf, hqj, hne]
      | published q' j' ty' net' v =>
          simp only [viewOf, Option.bind_some, Option.bind_none]
          split <;> rfl
      | _ => rfl
  | call q' j' a => simp only [viewOf]; split <;> rfl
  | out q' j' o => simp only [viewOf]; split <;> rfl

theorem step_net {r : State σ M × List (Out α M ω)} {p i : Nat} {net : String} (hi : netOf r.1 p i = some net) (e : Event α) : netOf (step S r e).1 p i = some net := by
  have hset : ∀ q j (x : String × σ), (∀ y, r.1.svc q j = some y → y.1 = x.1) → netOf (r.1.set q j x) p i = some net := by
    intro q j x hx
    unfold netOf State.set
    simp only
    split
    · rename_i hab
      obtain ⟨rfl, rfl⟩ := hab
      obtain ⟨st, hst⟩ := netOf_some.1 hi
      rw [Option.map_some, ← hx _ hst]
    · exact hi
  have hacts : ∀ (l : List (Act M ω)) r' q j n, netOf r'.1 p i = some net → netOf (l.foldl (act S q j n) r').1 p i = some net := by
    intro l
    induction l with
    | nil => intro r' q j n h; exact h
    | cons a l ih => intro r' q j n h; rw [List.foldl_cons]; exact ih _ q j n (by rw [act_net]; exact h)
  cases e with
  | create q j n =>
      simp only [step]
      cases hx : r.1.svc q j with
      | none => rw [onLinks_net]; exact hset q j _ (by rw [hx]; simp)
      | some x => exact hi
  | call q j a =>
      simp only [step]
      cases hx : r.1.svc q j with
      | none => exact hi
      | some x => exact hacts _ _ q j _ (hset q j _ (by rw [hx]; simp))
  | connect p q => simp only [step]; rw [onLinks_net]; exact hi
  | announce p q => simp only [step]; rw [onLinks_net]; exact hi
  | deliver p q => simp only [step]; rw [onLinks_net]; exact hi
  | close p q => simp only [step]; rw [onLinks_net]; exact hi

/-! ## Where a subscription is accepted -/

def isAccepted : Links.Out (Nat × M) → Bool
  | .accepted .. => true
  | _ => false

def isRegistered : Links.Out (Nat × M) → Bool
  | .registered .. => true
  | _ => false

theorem reacts_accepted (l : List (Links.Out (Nat × M))) (hl : ∀ o ∈ l, isAccepted o = true) (r : State σ M × List (Out α M ω)) :
    l.foldl (react S) r = (r.1, r.2 ++ l.map .link) := by
  induction l generalizing r with
  | nil => simp
  | cons o l ih =>
      have ho := hl o (by simp)
      cases o with
      | accepted p q ty net =>
          rw [List.foldl_cons, ih (fun o h => hl o (by simp [h]))]
          simp [react]
      | _ => cases ho

/-- The outputs of the links are all acceptances, or none of them is. -/
theorem deliver_accepted (s : Links.State (Nat × M)) (p q : Nat) :
    (∀ o ∈ (Links.deliver s p q).2, isAccepted o = true) ∨ (∀ o ∈ (Links.deliver s p q).2, isAccepted o = false) := by
  unfold Links.deliver
  split
  · right; simp
  · split
    · rename_i w ws hc ho'
      cases w with
      | subscribe idx net sd =>
          left
          simp only [Links.handle]
          have key : ∀ (l : List MsgType) (r' : Links.State (Nat × M) × List (Links.Out (Nat × M))), (∀ o ∈ r'.2, isAccepted o = true) →
              ∀ o ∈ (l.foldl (Links.subscribeStep q p idx net sd) r').2, isAccepted o = true := by
            intro l
            induction l with
            | nil => intro r' hr'; exact hr'
            | cons ty l ih =>
                intro r' hr'
                refine ih _ ?_
                unfold Links.subscribeStep
                split
                · simp only
                  split
                  · exact hr'
                  · intro o ho
                    rw [List.mem_append] at ho
                    rcases ho with ho | ho
                    · exact hr' o ho
                    · simp at ho; subst ho; rfl
                · exact hr'
          exact key _ _ (by simp)
      | data idx ty v =>
          right
          simp only [Links.handle]
          split
          · simp
          · split
            · intro o ho
              simp only [List.mem_cons, List.mem_map] at ho
              rcases ho with ho | ⟨j, hj, ho⟩ <;> subst ho <;> rfl
            · intro o ho; simp at ho; subst ho; rfl
    · right; simp

theorem deliver_registered (s : Links.State (Nat × M)) (p q : Nat) : ∀ o ∈ (Links.deliver s p q).2, isRegistered o = false := by
  rcases deliver_accepted s p q with h | h
  · intro o ho
    have := h o ho
    cases o with
    | registered => cases this
    | _ => rfl
  · intro o ho
    cases o with
    | registered x ty net j =>
        exfalso
        unfold Links.deliver at ho
        split at ho
        · simp at ho
        · split at ho
          · rename_i w ws hc ho'
            cases w with
            | subscribe idx net' sd =>
                have key : ∀ (l : List MsgType) (r' : Links.State (Nat × M) × List (Links.Out (Nat × M))), (Links.Out.registered x ty net j ∉ r'.2) →
                    Links.Out.registered x ty net j ∉ (l.foldl (Links.subscribeStep q p idx net' sd) r').2 := by
                  intro l
                  induction l with
                  | nil => intro r' hr'; exact hr'
                  | cons ty' l ih =>
                      intro r' hr'
                      refine ih _ ?_
                      unfold Links.subscribeStep
                      split
                      · simp only
                        split
                        · exact hr'
                        · intro ho
                          rw [List.mem_append] at ho
                          rcases ho with ho | ho
                          · exact hr' ho
                          · simp at ho
                      · exact hr'
                exact key _ _ (by simp) ho
            | data idx ty' v =>
                simp only [Links.handle] at ho
                split at ho
                · simp at ho
                · split at ho
                  · simp only [List.mem_cons, List.mem_map] at ho
                    rcases ho with ho | ⟨j, hj, ho⟩ <;> cases ho
                  · simp at ho
          · simp at ho
    | _ => rfl

/-- A call leads to no acceptances and registrations. -/
theorem acts_linkPart (p i : Nat) (net : String) (l : List (Act M ω)) (r : State σ M × List (Out α M ω)) :
    ∃ u, linkPart (l.foldl (act S p i net) r).2 = linkPart r.2 ++ u ∧ ∀ o ∈ u, isAccepted o = false ∧ isRegistered o = false := by
  induction l generalizing r with
  | nil => exact ⟨[], by simp⟩
  | cons a l ih =>
      rw [List.foldl_cons]
      obtain ⟨u, e, hu⟩ := ih (act S p i net r a)
      cases a with
      | out o =>
          refine ⟨u, ?_, hu⟩
          rw [e]; simp [act, linkPart]
      | send m =>
          have e2 : linkPart (act S p i net r (.send m)).2 = linkPart r.2 ++ (Links.on r.1.links (.send p i S.ty net (i, m))).2 := by
            unfold act onLinks; rw [(foldl_react_linkPart _ _).1]
          refine ⟨(Links.on r.1.links (.send p i S.ty net (i, m))).2 ++ u, ?_, ?_⟩
          · rw [e, e2, List.append_assoc]
          · intro o ho
            rw [List.mem_append] at ho
            rcases ho with ho | ho
            · simp only [Links.on, Links.send, List.mem_cons, List.mem_map] at ho
              rcases ho with ho | ⟨j, hj, ho⟩ <;> subst ho <;> exact ⟨rfl, rfl⟩
            · exact hu o ho

theorem mem_linkPart {o : Links.Out (Nat × M)} {t : List (Out α M ω)} : o ∈ linkPart t ↔ Out.link o ∈ t := by
  unfold linkPart
  rw [List.mem_filterMap]
  constructor
  · rintro ⟨x, hx, e⟩
    cases x with
    | link o' => injection e with e; subst e; exact hx
    | call => cases e
    | out => cases e
  · intro h; exact ⟨_, h, rfl⟩

theorem onLinks_linkPart (s : State σ M) (e : Links.Event (Nat × M)) : linkPart (onLinks S (s, ([] : List (Out α M ω))) e).2 = (Links.on s.links e).2 := by
  unfold onLinks; rw [(foldl_react_linkPart _ _).1]; rfl

/-- If a subscription is accepted in a step, then nothing else happens in it. -/
theorem on_accepted (s : State σ M) (e : Event α) {p q : Nat} {ty : MsgType} {net : String} (hm : Out.link (.accepted p q ty net) ∈ (on S s e).2) :
    ∀ o ∈ (on S s e).2, ∃ p q ty net, o = Out.link (.accepted p q ty net) := by
  rw [← mem_linkPart] at hm
  cases e with
  | create p' i net' =>
      exfalso
      simp only [on, create] at hm
      cases hx : s.svc p' i with
      | none => rw [hx] at hm; simp only at hm; rw [onLinks_linkPart] at hm; simp [Links.on] at hm
      | some x => rw [hx] at hm; simp [linkPart] at hm
  | call p' i a =>
      exfalso
      simp only [on, call] at hm
      cases hx : s.svc p' i with
      | none => rw [hx] at hm; simp [linkPart] at hm
      | some x =>
          rw [hx] at hm; simp only at hm
          obtain ⟨u, e, hu⟩ := acts_linkPart (S := S) p' i x.1 (S.api x.2 a).2 (s.set p' i (x.1, (S.api x.2 a).1), [.call p' i a])
          rw [e] at hm
          have e1 : linkPart [(Out.call p' i a : Out α M ω)] = [] := rfl
          rw [e1, List.nil_append] at hm
          exact absurd (hu _ hm).1 (by simp [isAccepted])
  | connect x y => rw [on, onLinks_linkPart] at hm; simp [Links.on] at hm
  | announce x y => rw [on, onLinks_linkPart] at hm; simp [Links.on] at hm
  | close x y =>
      rw [on, onLinks_linkPart] at hm
      simp only [Links.on, Links.close] at hm
      split at hm <;> simp at hm
  | deliver x y =>
      rw [on, onLinks_linkPart] at hm
      have hm' : Links.Out.accepted p q ty net ∈ (Links.deliver s.links x y).2 := hm
      rcases deliver_accepted s.links x y with h | h
      · intro o ho
        have e : on S s (.deliver x y) = (_, [] ++ (Links.deliver s.links x y).2.map .link) := reacts_accepted (S := S) _ h _
        rw [e, List.nil_append, List.mem_map] at ho
        obtain ⟨o', ho', rfl⟩ := ho
        have := h o' ho'
        cases o' with
        | accepted a b c d => exact ⟨a, b, c, d, rfl⟩
        | _ => cases this
      · exact absurd (h _ hm') (by simp [isAccepted])

/-- If a service registers in a step, then it is new, and nothing else happens in that step. -/
theorem on_registered (s : State σ M) (e : Event α) {p i : Nat} {ty : MsgType} {net : String} (hm : Out.link (.registered p ty net i) ∈ (on S s e).2) :
    (on S s e).2 = [Out.link (.registered p ty net i)] ∧ s.svc p i = none := by
  rw [← mem_linkPart] at hm
  cases e with
  | create p' i' net' =>
      simp only [on, create] at hm ⊢
      cases hx : s.svc p' i' with
      | none =>
          rw [hx] at hm; simp only at hm; rw [onLinks_linkPart] at hm
          simp [Links.on] at hm
          obtain ⟨rfl, rfl, rfl, rfl⟩ := hm
          exact ⟨rfl, hx⟩
      | some x => rw [hx] at hm; simp [linkPart] at hm
  | call p' i a =>
      exfalso
      simp only [on, call] at hm
      cases hx : s.svc p' i with
      | none => rw [hx] at hm; simp [linkPart] at hm
      | some x =>
          rw [hx] at hm; simp only at hm
          obtain ⟨u, e, hu⟩ := acts_linkPart (S := S) p' i x.1 (S.api x.2 a).2 (s.set p' i (x.1, (S.api x.2 a).1), [.call p' i a])
          rw [e] at hm
          have e1 : linkPart [(Out.call p' i a : Out α M ω)] = [] := rfl
          rw [e1, List.nil_append] at hm
          exact absurd (hu _ hm).2 (by simp [isRegistered])
  | connect x y => rw [on, onLinks_linkPart] at hm; simp [Links.on] at hm
  | announce x y => rw [on, onLinks_linkPart] at hm; simp [Links.on] at hm
  | close x y =>
      rw [on, onLinks_linkPart] at hm
      simp only [Links.on, Links.close] at hm
      split at hm <;> simp at hm
  | deliver x y =>
      rw [on, onLinks_linkPart] at hm
      exact absurd (deliver_registered s.links x y _ hm) (by simp [isRegistered])

/-- Where a subscription is accepted, the steps before are over. -/
theorem accepted_boundary (h : List (Event α)) (a b : List (Out α M ω)) {p q : Nat} {ty : MsgType} {net : String}
    (e : trace off S h = a ++ Out.link (.accepted p q ty net) :: b) :
    ∃ h1 h2 a', h = h1 ++ h2 ∧ a = trace off S h1 ++ a' ∧ ∀ o ∈ a', ∃ p q ty net, o = Out.link (.accepted p q ty net) := by
  revert e a b
  rw [← List.reverse_reverse h]
  induction h.reverse with
  | nil => intro a b e; simp [trace, run] at e
  | cons x h ih =>
      intro a b e
      rw [List.reverse_cons] at e ⊢
      unfold trace at e
      rw [run_append] at e
      rcases Util.split_append e with ⟨b', e1, e2⟩ | ⟨a', e1, e2⟩
      · obtain ⟨h1, h2, a', e3, e4, e5⟩ := ih a b' e1
        exact ⟨h1, h2 ++ [x], a', by rw [e3, List.append_assoc], e4, e5⟩
      · have := on_accepted (S := S) (run off S h.reverse).1 x (p := p) (q := q) (ty := ty) (net := net) (by rw [e2]; simp)
        exact ⟨h.reverse, [x], a', rfl, e1, fun o ho => this o (by rw [e2]; simp [ho])⟩

/-- Where a service registers, the steps before are over, and the service is new. -/
theorem registered_boundary (h : List (Event α)) (a b : List (Out α M ω)) {p i : Nat} {ty : MsgType} {net : String}
    (e : trace off S h = a ++ Out.link (.registered p ty net i) :: b) :
    ∃ h1 h2, h = h1 ++ h2 ∧ a = trace off S h1 ∧ (run off S h1).1.svc p i = none := by
  revert e a b
  rw [← List.reverse_reverse h]
  induction h.reverse with
  | nil => intro a b e; simp [trace, run] at e
  | cons x h ih =>
      intro a b e
      rw [List.reverse_cons] at e ⊢
      unfold trace at e
      rw [run_append] at e
      rcases Util.split_append e with ⟨b', e1, e2⟩ | ⟨a', e1, e2⟩
      · obtain ⟨h1, h2, e3, e4, e5⟩ := ih a b' e1
        exact ⟨h1, h2 ++ [x], by rw [e3, List.append_assoc], e4, e5⟩
      · obtain ⟨e6, e7⟩ := on_registered (S := S) (run off S h.reverse).1 x (p := p) (i := i) (ty := ty) (net := net) (by rw [e2]; simp)
        rw [e6] at e2
        have ha' : a' = [] := by
          cases a' with
          | nil => rfl
          | cons y a' => simp at e2
        rw [ha', List.append_nil] at e1
        exact ⟨h.reverse, [x], rfl, e1, e7⟩

theorem view_accepted (p i : Nat) (l : List (Out α M ω)) (hl : ∀ o ∈ l, ∃ p q ty net, o = Out.link (.accepted p q ty net)) : view p i l = [] := by
  unfold view
  rw [List.filterMap_eq_nil_iff]
  intro o ho
  obtain ⟨a, b, c, d, rfl⟩ := hl o ho
  rfl

end SilKit.Bus
