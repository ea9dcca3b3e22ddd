import Verif.Lemmas.BusDelivery
/-!
# What a service does, from its own point of view
-/
namespace SilKit.Bus
open Spec
open SilKit.Links (MsgType)

variable {σ α M ω : Type}

def viewOut : View α M ω → Option ω
  | .act (.out o) => some o
  | _ => none

def viewCall : View α M ω → Option α
  | .inp (.call a) => some a
  | _ => none

def actSend : Act M ω → Option M
  | .send m => some m
  | .out _ => none

theorem outs_view (p i : Nat) (t : List (Out α M ω)) : outs p i t = (view p i t).filterMap viewOut := by
  unfold outs view
  rw [List.filterMap_filterMap]
  refine Links.filterMap_congr ?_
  intro o _
  cases o with
  | link o => cases o <;> simp only [viewOf] <;> (try split) <;> rfl
  | call q j a => simp only [viewOf]; split <;> rfl
  | out q j o => simp only [viewOf]; split <;> rfl

theorem calls_view (p i : Nat) (t : List (Out α M ω)) : calls p i t = (view p i t).filterMap viewCall := by
  unfold calls view
  rw [List.filterMap_filterMap]
  refine Links.filterMap_congr ?_
  intro o _
  cases o with
  | link o => cases o <;> simp only [viewOf] <;> (try split) <;> rfl
  | call q j a => simp only [viewOf]; split <;> rfl
  | out q j o => simp only [viewOf]; split <;> rfl

/-- A call and what follows from it. -/
def callView (a : α) (acts : List (Act M ω)) : List (View α M ω) := .inp (.call a) :: acts.map .act

/-- A message and what follows from it. -/
def recvView (src : Nat × Nat) (m : M) (os : List ω) : List (View α M ω) := .inp (.recv src m) :: os.map (fun o => .act (.out o))

theorem localStep_call (S : Service σ α M ω) (r : σ × List (View α M ω)) (a : α) :
    localStep S r (.call a) = ((S.api r.1 a).1, r.2 ++ callView a (S.api r.1 a).2) := rfl

theorem localStep_recv (S : Service σ α M ω) (r : σ × List (View α M ω)) (src : Nat × Nat) (m : M) :
    localStep S r (.recv src m) = ((S.recv r.1 src m).1, r.2 ++ recvView src m (S.recv r.1 src m).2) := rfl

theorem callView_out (a : α) (acts : List (Act M ω)) : (callView a acts).filterMap viewOut = acts.filterMap actOut := by
  unfold callView
  rw [List.filterMap_cons]
  simp only [viewOut]
  rw [List.filterMap_map]
  refine Links.filterMap_congr ?_
  intro x _
  cases x <;> rfl

theorem callView_call (a : α) (acts : List (Act M ω)) : (callView a acts).filterMap viewCall = [a] := by
  unfold callView
  rw [List.filterMap_cons]
  simp only [viewCall]
  congr 1
  rw [List.filterMap_eq_nil_iff]
  intro v hv
  rw [List.mem_map] at hv
  obtain ⟨o, -, rfl⟩ := hv
  rfl

theorem callView_sends (a : α) (acts : List (Act M ω)) : sends (callView a acts) = acts.filterMap actSend := by
  unfold callView sends
  rw [List.filterMap_cons]
  simp only
  rw [List.filterMap_map]
  refine Links.filterMap_congr ?_
  intro x _
  cases x <;> rfl

theorem callView_recvs (src : Nat × Nat) (a : α) (acts : List (Act M ω)) : recvs src (callView a acts) = [] := by
  unfold callView recvs
  rw [List.filterMap_cons]
  simp only
  rw [List.filterMap_eq_nil_iff]
  intro v hv
  rw [List.mem_map] at hv
  obtain ⟨o, -, rfl⟩ := hv
  rfl

theorem recvView_out (src : Nat × Nat) (m : M) (os : List ω) : (recvView src m os : List (View α M ω)).filterMap viewOut = os := by
  unfold recvView
  rw [List.filterMap_cons]
  simp only [viewOut]
  induction os with
  | nil => rfl
  | cons x l ih => rw [List.map_cons, List.filterMap_cons]; simp only [viewOut]; rw [ih]

theorem recvView_call (src : Nat × Nat) (m : M) (os : List ω) : (recvView src m os : List (View α M ω)).filterMap viewCall = [] := by
  unfold recvView
  rw [List.filterMap_cons]
  simp only [viewCall]
  rw [List.filterMap_eq_nil_iff]
  intro v hv
  rw [List.mem_map] at hv
  obtain ⟨o, -, rfl⟩ := hv
  rfl

theorem recvView_sends (src : Nat × Nat) (m : M) (os : List ω) : sends (recvView src m os : List (View α M ω)) = [] := by
  unfold recvView sends
  rw [List.filterMap_cons]
  simp only
  rw [List.filterMap_eq_nil_iff]
  intro v hv
  rw [List.mem_map] at hv
  obtain ⟨o, -, rfl⟩ := hv
  rfl

theorem recvView_recvs (s src : Nat × Nat) (m : M) (os : List ω) : recvs s (recvView src m os : List (View α M ω)) = if src = s then [m] else [] := by
  unfold recvView recvs
  rw [List.filterMap_cons]
  have : (os.map (fun o => (View.act (.out o) : View α M ω))).filterMap (fun | .inp (.recv s' m) => if s' = s then some m else none | _ => none) = [] := by
    rw [List.filterMap_eq_nil_iff]
    intro v hv
    rw [List.mem_map] at hv
    obtain ⟨o, -, rfl⟩ := hv
    rfl
  simp only [this]
  by_cases h : src = s <;> simp [h]

theorem filterMap_actOut (l : List ω) : (l.map (Act.out : ω → Act M ω)).filterMap actOut = l := by
  induction l with
  | nil => rfl
  | cons x l ih => rw [List.map_cons, List.filterMap_cons]; simp only [actOut]; rw [ih]

theorem filterMap_actSend (l : List ω) : (l.map (Act.out : ω → Act M ω)).filterMap actSend = [] := by
  rw [List.filterMap_eq_nil_iff]
  intro v hv
  rw [List.mem_map] at hv
  obtain ⟨o, -, rfl⟩ := hv
  rfl

theorem localRun_induction {S : Service σ α M ω} {P : σ × List (View α M ω) → Prop} {i : Nat} {net : String} (h0 : P (S.start i net, []))
    (ok : In α M → Prop) (hs : ∀ r x, ok x → P r → P (localStep S r x)) (l : List (In α M)) (hl : ∀ x ∈ l, ok x) : P (localRun S i net l) := by
  revert hl
  rw [← List.reverse_reverse l]
  induction l.reverse with
  | nil => intro _; exact h0
  | cons x l ih =>
      intro hl
      rw [List.reverse_cons] at hl ⊢
      rw [localRun_snoc]
      exact hs _ x (hl x (by simp)) (ih (fun x hx => hl x (by simp at hx ⊢; exact Or.inl hx)))

theorem solo_snoc (S : Service σ α M ω) (i : Nat) (net : String) (h : List (Input α M)) (x : Input α M) : solo S i net (h ++ [x]) = soloStep S (solo S i net h) x := by
  unfold solo; rw [List.foldl_append]; rfl

theorem solo_induction {S : Service σ α M ω} {P : σ × List ω → Prop} {i : Nat} {net : String} (h0 : P (S.start i net, []))
    (hs : ∀ r x, P r → P (soloStep S r x)) (h : List (Input α M)) : P (solo S i net h) := by
  rw [← List.reverse_reverse h]
  induction h.reverse with
  | nil => exact h0
  | cons x h ih => rw [List.reverse_cons, solo_snoc]; exact hs _ _ ih

def toInput : In α M → Input α M
  | .call a => .inl a
  | .recv src m => .inr (src, m)

/-- A service on links is a single service. -/
theorem localRun_solo (S : Service σ α M ω) (i : Nat) (net : String) (l : List (In α M)) :
    (localRun S i net l).1 = (solo S i net (l.map toInput)).1 ∧ (localRun S i net l).2.filterMap viewOut = (solo S i net (l.map toInput)).2 := by
  rw [← List.reverse_reverse l]
  induction l.reverse with
  | nil => exact ⟨rfl, rfl⟩
  | cons x l ih =>
      rw [List.reverse_cons, localRun_snoc, List.map_append, List.map_singleton, solo_snoc]
      cases x with
      | call a =>
          rw [localStep_call]
          simp only [toInput, soloStep]
          rw [List.filterMap_append, callView_out, ih.1, ih.2]
          exact ⟨rfl, rfl⟩
      | recv src m =>
          rw [localStep_recv]
          simp only [toInput, soloStep]
          rw [List.filterMap_append, recvView_out, ih.1, ih.2]
          exact ⟨rfl, rfl⟩

theorem outs_solo {off : Nat → MsgType → String → Bool} {S : Service σ α M ω} (hS : Links.selfDeliveryEnforced S.ty = false) (h : List (Event α))
    {p i : Nat} {net : String} {st : σ} (e : (run off S h).1.svc p i = some (net, st)) :
    outs p i (trace off S h) = (solo S i net ((inputs (view p i (trace off S h))).map toInput)).2 := by
  have := localRun_solo S i net (inputs (view p i (trace off S h)))
  rw [view_run hS h e] at this
  rw [outs_view]; exact this.2

/-! ## Calls of the API are events -/

def isCall : Out α M ω → Bool
  | .call .. => true
  | _ => false

theorem react_no_call (S : Service σ α M ω) (r : State σ M × List (Out α M ω)) (o : Links.Out (Nat × M)) {x : Out α M ω} (hx : isCall x = true)
    (hm : x ∈ (react S r o).2) : x ∈ r.2 := by
  have hl : ∀ l : List (Out α M ω), (∀ y ∈ l, isCall y = false) → x ∈ r.2 ++ l → x ∈ r.2 := by
    intro l hl hm
    rw [List.mem_append] at hm
    rcases hm with hm | hm
    · exact hm
    · rw [hl x hm] at hx; cases hx
  unfold react at hm
  cases o with
  | received q i ty net p v =>
      simp only at hm
      cases hs : r.1.svc q i with
      | none => rw [hs] at hm; exact hl _ (by simp [isCall]) hm
      | some y => rw [hs] at hm; exact hl _ (by simp [isCall]) hm
  | _ => exact hl _ (by simp [isCall]) hm

theorem onLinks_no_call (S : Service σ α M ω) (r : State σ M × List (Out α M ω)) (e : Links.Event (Nat × M)) {x : Out α M ω} (hx : isCall x = true)
    (hm : x ∈ (onLinks S r e).2) : x ∈ r.2 := by
  unfold onLinks at hm
  have : ∀ (l : List (Links.Out (Nat × M))) (r : State σ M × List (Out α M ω)), x ∈ (l.foldl (react S) r).2 → x ∈ r.2 := by
    intro l
    induction l with
    | nil => intro r h; exact h
    | cons o l ih => intro r h; exact react_no_call S r o hx (ih _ h)
  have h2 := this _ _ hm
  exact h2

theorem acts_no_call (S : Service σ α M ω) (p i : Nat) (net : String) (l : List (Act M ω)) (r : State σ M × List (Out α M ω)) {x : Out α M ω} (hx : isCall x = true)
    (hm : x ∈ (l.foldl (act S p i net) r).2) : x ∈ r.2 := by
  induction l generalizing r with
  | nil => exact hm
  | cons a l ih =>
      have := ih _ hm
      cases a with
      | send m => exact onLinks_no_call S r _ hx this
      | out o =>
          simp only [act, List.mem_append, List.mem_singleton] at this
          rcases this with h | h
          · exact h
          · subst h; cases hx

theorem call_mem {off : Nat → MsgType → String → Bool} {S : Service σ α M ω} (h : List (Event α)) {p i : Nat} {a : α}
    (hm : Out.call p i a ∈ trace off S h) : Event.call p i a ∈ h := by
  revert hm
  unfold trace
  rw [← List.reverse_reverse h]
  induction h.reverse with
  | nil => intro hm; cases hm
  | cons e h ih =>
      rw [List.reverse_cons, run_snoc]
      intro hm
      rw [List.mem_append, List.mem_singleton]
      have quiet : Out.call p i a ∈ (run off S h.reverse).2 → Event.call p i a ∈ h.reverse ∨ Event.call p i a = e := fun hm => Or.inl (ih hm)
      cases e with
      | create p' i' net =>
          simp only [step] at hm
          split at hm
          · have h2 := onLinks_no_call S _ _ rfl hm
            exact quiet h2
          · exact quiet hm
      | call p' i' a' =>
          simp only [step] at hm
          split at hm
          · exact quiet hm
          · have := acts_no_call S _ _ _ _ _ rfl hm
            simp only [List.mem_append, List.mem_singleton] at this
            rcases this with h1 | h1
            · exact quiet h1
            · right; injection h1 with h1 h2 h3; rw [h1, h2, h3]
      | connect => exact quiet (onLinks_no_call S _ _ rfl hm)
      | announce => exact quiet (onLinks_no_call S _ _ rfl hm)
      | deliver => exact quiet (onLinks_no_call S _ _ rfl hm)
      | close => exact quiet (onLinks_no_call S _ _ rfl hm)

theorem view_call_mem {p i : Nat} {t : List (Out α M ω)} {a : α} (h : In.call a ∈ inputs (view p i t)) : Out.call p i a ∈ t := by
  unfold inputs view at h
  rw [List.mem_filterMap] at h
  obtain ⟨v, hv, e⟩ := h
  rw [List.mem_filterMap] at hv
  obtain ⟨o, ho, e2⟩ := hv
  cases v with
  | act x => cases e
  | inp x =>
      injection e with e; subst e
      cases o with
      | link o => cases o <;> simp only [viewOf] at e2 <;> (try split at e2) <;> simp at e2
      | call q j b =>
          simp only [viewOf] at e2
          split at e2
          · rename_i hc; obtain ⟨rfl, rfl⟩ := hc; simp at e2; rw [e2] at ho; exact ho
          · cases e2
      | out q j b =>
          simp only [viewOf] at e2
          split at e2 <;> simp at e2

/-! ## Histories of the links that extend each other -/

variable {off : Nat → MsgType → String → Bool} {S : Service σ α M ω}

/-- The links have seen a history that begins with `lh`. -/
def LinksFrom (off : Nat → MsgType → String → Bool) (lh : List (Links.Event (Nat × M))) (r : State σ M × List (Out α M ω)) : Prop :=
  ∃ l, Links.Spec.run off (lh ++ l) = (r.1.links, linkPart r.2)

theorem onLinks_from {lh : List (Links.Event (Nat × M))} {r : State σ M × List (Out α M ω)} (h : LinksFrom off lh r) (e : Links.Event (Nat × M)) :
    LinksFrom off lh (onLinks S r e) := by
  obtain ⟨l, e1⟩ := h
  refine ⟨l ++ [e], ?_⟩
  rw [← List.append_assoc, Links.run_append, e1]
  unfold onLinks
  rw [(foldl_react_linkPart _ _).1, (foldl_react_linkPart _ _).2]

theorem acts_from (l : List (Act M ω)) {lh : List (Links.Event (Nat × M))} {r : State σ M × List (Out α M ω)} (h : LinksFrom off lh r) (p i : Nat) (net : String) :
    LinksFrom off lh (l.foldl (act S p i net) r) := by
  induction l generalizing r with
  | nil => exact h
  | cons a l ih =>
      refine ih ?_
      cases a with
      | send m => exact onLinks_from h _
      | out o =>
          obtain ⟨l, e⟩ := h
          refine ⟨l, ?_⟩
          rw [e]
          simp [act, linkPart]

theorem step_from {lh : List (Links.Event (Nat × M))} {r : State σ M × List (Out α M ω)} (h : LinksFrom off lh r) (e : Event α) : LinksFrom off lh (step S r e) := by
  cases e with
  | create p i net =>
      simp only [step]
      split
      · exact onLinks_from (by obtain ⟨l, e⟩ := h; exact ⟨l, e⟩) _
      · exact h
  | call p i a =>
      simp only [step]
      split
      · exact h
      · refine acts_from _ ?_ _ _ _
        obtain ⟨l, e⟩ := h
        refine ⟨l, ?_⟩
        rw [e]
        simp [linkPart, State.set]
  | connect p q => exact onLinks_from h _
  | announce p q => exact onLinks_from h _
  | deliver p q => exact onLinks_from h _
  | close p q => exact onLinks_from h _

theorem run_from {lh : List (Links.Event (Nat × M))} {h1 : List (Event α)} (h : LinksFrom off lh (run off S h1)) (h2 : List (Event α)) :
    LinksFrom off lh (run off S (h1 ++ h2)) := by
  rw [← List.reverse_reverse h2]
  induction h2.reverse with
  | nil => rw [List.reverse_nil, List.append_nil]; exact h
  | cons e h2 ih => rw [List.reverse_cons, ← List.append_assoc, run_snoc]; exact step_from ih e

/-- If a participant announces its subscribers, those that register before or after are accepted, once all it has sent has been handled. -/
theorem subscription_accepted (hn : Links.Spec.NamedUniquely S.ty) (h1 h2 : List (Event α)) (p q j : Nat) (net : String)
    (ho : (run off S h1).1.links.status q p = .isOpen) (hr : Out.link (.registered q S.ty net j) ∈ trace off S (h1 ++ .announce q p :: h2))
    (hd : Drained off S (h1 ++ .announce q p :: h2) q p) : Out.link (.accepted p q S.ty net) ∈ trace off S (h1 ++ .announce q p :: h2) := by
  obtain ⟨lh1, el1⟩ := run_links (off := off) (S := S) h1
  have hf : LinksFrom off (lh1 ++ [.announce q p]) (run off S (h1 ++ [.announce q p])) := by
    refine ⟨[], ?_⟩
    rw [List.append_nil, Links.run_append, el1, run_snoc]
    simp only [step, onLinks]
    rw [(foldl_react_linkPart _ _).1, (foldl_react_linkPart _ _).2]
  obtain ⟨l, el⟩ := run_from hf h2
  rw [List.append_assoc, List.append_assoc] at el
  have el' : Links.Spec.run off (lh1 ++ .announce q p :: l) = ((run off S (h1 ++ .announce q p :: h2)).1.links, linkPart (trace off S (h1 ++ .announce q p :: h2))) := el
  have et : Links.Spec.trace off (lh1 ++ .announce q p :: l) = linkPart (trace off S (h1 ++ .announce q p :: h2)) := by
    unfold Links.Spec.trace; rw [el']
  have := Props.C27_subscription_is_accepted (off := off) lh1 l p q j S.ty net hn (by rw [el1]; exact ho) (by rw [et]; exact mem_linkPart.2 hr)
    (by obtain ⟨d1, d2⟩ := hd; exact ⟨by rw [el']; exact d1, by rw [el']; exact d2⟩)
  rw [et] at this
  exact mem_linkPart.1 this

/-- What is received was sent, by a service on the same network. -/
theorem recvs_mem_sends (hS : Links.selfDeliveryEnforced S.ty = false) (h : List (Event α)) {p i q j : Nat} {net : String} {m : M}
    (hj : netOf (run off S h).1 q j = some net) (hm : m ∈ recvs (p, i) (view q j (trace off S h))) :
    netOf (run off S h).1 p i = some net ∧ m ∈ sends (view p i (trace off S h)) := by
  rw [← received_recvs hS h hj] at hm
  unfold ofSvc at hm
  rw [List.mem_filterMap] at hm
  obtain ⟨v, hv, e⟩ := hm
  split at e
  · rename_i hvi
    injection e with e
    obtain ⟨lh, el⟩ := run_links (off := off) (S := S) h
    have et : Links.Spec.trace off lh = linkPart (trace off S h) := by unfold Links.Spec.trace; rw [el]; rfl
    have hv' : Links.Out.received q j S.ty net p v ∈ Links.Spec.trace off lh := by
      rw [et]
      unfold Links.Spec.received at hv
      rw [List.mem_filterMap] at hv
      obtain ⟨o, ho, e2⟩ := hv
      cases o with
      | received q' j' ty' net' p' v' =>
          simp only at e2
          split at e2
          · rename_i hc; obtain ⟨rfl, rfl, rfl, rfl, rfl⟩ := hc; injection e2 with e2; rw [← e2]; exact ho
          · cases e2
      | _ => cases e2
    have hp := (Props.C38_received_values_were_published lh q j S.ty net p v hv').1
    rw [et] at hp
    have hp' : m ∈ ofSvc i (Links.Spec.published p S.ty net (linkPart (trace off S h))) := by
      unfold ofSvc; rw [List.mem_filterMap]; exact ⟨v, hp, by rw [if_pos hvi, e]⟩
    have hnet : netOf (run off S h).1 p i = some net := by
      unfold Links.Spec.published at hp
      rw [List.mem_filterMap] at hp
      obtain ⟨o, ho, e2⟩ := hp
      cases o with
      | published p' s' ty' net' v' =>
          simp only at e2
          split at e2
          · rename_i hc
            obtain ⟨rfl, rfl, rfl⟩ := hc
            injection e2 with e2; subst e2
            obtain ⟨-, h2, st, h3⟩ := (run_Ok (off := off) hS h).pub p' s' _ _ _ ho
            rw [← hvi, h2]
            exact netOf_some.2 ⟨st, h3⟩
          · cases e2
      | _ => cases e2
    refine ⟨hnet, ?_⟩
    rw [published_sends hS h hnet _ (fun _ hx => hx)] at hp'
    exact hp'
  · cases e

end SilKit.Bus
