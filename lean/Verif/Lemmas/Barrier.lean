import Verif.Spec.Barrier
/-!
# Lemmas about the replies barrier
-/
namespace SilKit.Barrier
open Spec

def callsOf : List Msg → List Nat
  | [] => []
  | .call u :: r => u :: callsOf r
  | _ :: r => callsOf r

def repliesOf : List Msg → List Nat
  | [] => []
  | .reply u :: r => u :: repliesOf r
  | _ :: r => repliesOf r

/-- The messages in front of the first call. -/
def beforeCall : List Msg → List Nat
  | [] => []
  | .data d :: r => d :: beforeCall r
  | .call _ :: _ => []
  | .reply _ :: r => beforeCall r

theorem callsOf_append (a b : List Msg) : callsOf (a ++ b) = callsOf a ++ callsOf b := by
  induction a with
  | nil => rfl
  | cons x a ih => cases x <;> simp [callsOf, ih]

theorem repliesOf_append (a b : List Msg) : repliesOf (a ++ b) = repliesOf a ++ repliesOf b := by
  induction a with
  | nil => rfl
  | cons x a ih => cases x <;> simp [repliesOf, ih]

theorem mem_beforeCall (c : List Msg) (d : Nat) (h : Msg.data d ∈ c) (hc : callsOf c = []) (b : List Msg) : d ∈ beforeCall (c ++ b) := by
  induction c with
  | nil => cases h
  | cons x c ih =>
    cases x with
    | data e =>
      rcases List.mem_cons.mp h with h | h
      · cases h; simp [beforeCall]
      · simp only [List.cons_append, beforeCall, List.mem_cons]; exact Or.inr (ih h hc)
    | call u => cases hc
    | reply u =>
      rcases List.mem_cons.mp h with h | h
      · cases h
      · exact ih h hc

theorem beforeCall_append (c b : List Msg) (hc : callsOf c ≠ []) : beforeCall (c ++ b) = beforeCall c := by
  induction c with
  | nil => exact absurd rfl hc
  | cons x c ih =>
    cases x with
    | data e => simp only [List.cons_append, beforeCall]; rw [ih hc]
    | call u => rfl
    | reply u => simp only [List.cons_append, beforeCall]; rw [ih hc]

/-- `p` waits for `q`. -/
def Node.waiting (n : Node) (q : String) : Prop := n.active = true ∧ q ∈ n.expected

instance (n : Node) (q : String) : Decidable (n.waiting q) := inferInstanceAs (Decidable (_ ∧ _))

structure Node.Ok (n : Node) : Prop where
  prep : ∀ q, n.prepared q = if n.waiting q then [n.uuid] else []
  ne : n.active = true → n.expected ≠ []

/-- The effect of an answer, or of a disconnect, of an expected participant. -/
def Node.answered (n : Node) (q : String) : Node :=
  { n with active := !(n.expected.filter (· ≠ q)).isEmpty, expected := n.expected.filter (· ≠ q),
           prepared := fun r => if r = q then [] else n.prepared r }

def Node.done (n : Node) (q : String) : Option Nat := if (n.expected.filter (· ≠ q)).isEmpty then some n.completion else none

theorem receiveReturn_eq (n : Node) (q : String) (ok : n.Ok) (hw : n.waiting q) : n.receiveReturn q n.uuid = (n.answered q, n.done q) := by
  have hp : n.prepared q = [n.uuid] := by rw [ok.prep, if_pos hw]
  have hact : n.active = true := hw.1
  have h1 : n.unprepare q n.uuid = { n with prepared := fun r => if r = q then [] else n.prepared r } := by
    unfold Node.unprepare; rw [hp, if_pos (by simp)]
  unfold Node.receiveReturn
  rw [h1]
  unfold Node.callReturn Node.answered Node.done
  simp only [hact, Bool.true_and, beq_self_eq_true, if_true]
  cases he : (n.expected.filter (fun x => decide (x ≠ q))).isEmpty
  · simp
  · simp

theorem onRemoval_waiting (n : Node) (q : String) (ok : n.Ok) (hw : n.waiting q) : n.onRemoval q = (n.answered q, (n.done q).toList) := by
  have hp : n.prepared q = [n.uuid] := by rw [ok.prep, if_pos hw]
  have hact : n.active = true := hw.1
  unfold Node.onRemoval
  rw [hp]
  simp only [Node.returnAll, List.append_nil]
  unfold Node.callReturn Node.answered Node.done
  simp only [hact, Bool.true_and, beq_self_eq_true, if_true]
  cases he : (n.expected.filter (fun x => decide (x ≠ q))).isEmpty
  · simp
  · simp

theorem onRemoval_idle (n : Node) (q : String) (ok : n.Ok) (hw : ¬ n.waiting q) : n.onRemoval q = (n, []) := by
  have hp : n.prepared q = [] := by rw [ok.prep, if_neg hw]
  unfold Node.onRemoval
  rw [hp]
  simp only [Node.returnAll]
  have : (fun r => if r = q then [] else n.prepared r) = n.prepared := by
    funext r
    by_cases h : r = q
    · subst h; rw [if_pos rfl, hp]
    · rw [if_neg h]
  rw [this]

theorem answered_waiting (n : Node) (q r : String) (ha : n.active = true) : (n.answered q).waiting r ↔ n.waiting r ∧ r ≠ q := by
  unfold Node.waiting Node.answered
  simp only [List.mem_filter, decide_eq_true_eq, ha, true_and]
  constructor
  · exact fun h => h.2
  · intro h
    refine ⟨?_, h⟩
    cases he : (n.expected.filter (· ≠ q)).isEmpty
    · rfl
    · have hm : r ∈ n.expected.filter (· ≠ q) := by simp [h]
      rw [List.isEmpty_iff.mp he] at hm
      cases hm

theorem answered_ok (n : Node) (q : String) (ok : n.Ok) (ha : n.active = true) : (n.answered q).Ok := by
  constructor
  · intro r
    have h1 := answered_waiting n q r ha
    by_cases hr : r = q
    · subst hr
      have : ¬ (n.answered r).waiting r := fun h => (h1.mp h).2 rfl
      rw [if_neg this]
      simp [Node.answered]
    · have h2 : (n.answered q).prepared r = n.prepared r := by simp [Node.answered, hr]
      rw [h2, ok.prep]
      have h3 : (n.answered q).uuid = n.uuid := rfl
      rw [h3]
      by_cases hw : n.waiting r
      · rw [if_pos hw, if_pos (h1.mpr ⟨hw, hr⟩)]
      · rw [if_neg hw, if_neg (fun h => hw (h1.mp h).1)]
  · intro h he
    have : (n.answered q).active = !(n.expected.filter (· ≠ q)).isEmpty := rfl
    rw [this] at h
    have h2 : (n.answered q).expected = n.expected.filter (· ≠ q) := rfl
    rw [h2] at he
    rw [he] at h
    cases h

theorem call_ok (n : Node) (l : List String) (k u : Nat) (ok : n.Ok) (ha : n.active = false) (hl : l ≠ []) : (n.call l k u).Ok := by
  constructor
  · intro r
    have hp : n.prepared r = [] := by rw [ok.prep, if_neg (fun h => by have := h.1; rw [ha] at this; cases this)]
    unfold Node.call Node.waiting
    simp only [hp, List.nil_append, true_and]
  · intro _; exact hl

/-- The messages between `p` and `q` that belong to a barrier of `p`. -/
def PairOk (w : Prop) (u : Nat) (out inn : Prop) (cpq cqp : List Msg) : Prop :=
  out → (¬ w → repliesOf cqp = [] ∧ (inn → callsOf cpq = [])) ∧
    (w → inn → (callsOf cpq = [u] ∧ repliesOf cqp = []) ∨ (callsOf cpq = [] ∧ repliesOf cqp = [u])) ∧
    (w → ¬ inn → repliesOf cqp = [] ∨ repliesOf cqp = [u])

/-- `q` has processed all that `p` sent. -/
def Done (t1 t : List Out) (p q : String) : Prop := ∀ d, Sent t1 p q d → Out.processed q p d ∈ t

def GhostPair (w inn : Prop) (cpq cqp : List Msg) (t1 t2 t : List Out) (p q : String) : Prop :=
  (w → (repliesOf cqp ≠ [] → Done t1 t p q) ∧
    (inn → callsOf cpq ≠ [] → ∀ d, Sent t1 p q d → Out.processed q p d ∈ t ∨ d ∈ beforeCall cpq)) ∧
  (¬ w → Out.lost p q ∈ t2 ∨ Done t1 t p q)

/-- The barrier pending at `p`. -/
def Ghost (n : Net) (t : List Out) (p : String) : Prop :=
  ∃ t1 t2, t = t1 ++ .started p (n.node p).completion :: t2 ∧ (∀ k, Out.started p k ∉ t2) ∧
    ∀ q, connectedTo t1 p q = true →
      GhostPair ((n.node p).waiting q) (p ∈ n.peers q) (n.chan p q) (n.chan q p) t1 t2 t p q

structure Inv (n : Net) (t : List Out) : Prop where
  irrefl : ∀ p, p ∉ n.peers p
  ok : ∀ p, (n.node p).Ok
  sub : ∀ p q, (n.node p).waiting q → q ∈ n.peers p
  conn : ∀ p q, connectedTo t p q = true ↔ q ∈ n.peers p
  pair : ∀ p q, PairOk ((n.node p).waiting q) (n.node p).uuid (q ∈ n.peers p) (p ∈ n.peers q) (n.chan p q) (n.chan q p)
  data : ∀ p q d, q ∈ n.peers p → p ∈ n.peers q → Sent t p q d → Out.processed q p d ∈ t ∨ Msg.data d ∈ n.chan p q
  pend : ∀ p, pending t p = if (n.node p).active then some (n.node p).completion else none
  ghost : ∀ p, (n.node p).active = true → Ghost n t p

/-! ### Traces -/

theorem connectedTo_append (t u : List Out) (p q : String) :
    connectedTo (t ++ u) p q = u.foldl (connStep p q) (connectedTo t p q) := List.foldl_append ..

theorem pending_append (t u : List Out) (p : String) : pending (t ++ u) p = u.foldl (pendStep p) (pending t p) := List.foldl_append ..

theorem sent_of_append {t u : List Out} {p q : String} {d : Nat} (h : Sent (t ++ u) p q d) (hu : Out.sent p q d ∉ u) : Sent t p q d := by
  obtain ⟨a, b, hab, hb⟩ := h
  rcases List.append_eq_append_iff.mp hab with ⟨c, hc1, hc2⟩ | ⟨c, hc1, hc2⟩
  · exact absurd (by rw [hc2]; simp) hu
  · cases c with
    | nil => exact absurd (by simp at hc2; rw [← hc2]; simp) hu
    | cons x c =>
      simp at hc2
      obtain ⟨rfl, rfl⟩ := hc2
      exact ⟨a, c, hc1, fun h => hb (by simp [h])⟩

theorem not_sent_of_connected {t u : List Out} {p q : String} {d : Nat} (hc : Out.connected p q ∈ u) (hu : Out.sent p q d ∉ u) :
    ¬ Sent (t ++ u) p q d := by
  rintro ⟨a, b, hab, hb⟩
  rcases List.append_eq_append_iff.mp hab with ⟨c, hc1, hc2⟩ | ⟨c, hc1, hc2⟩
  · exact absurd (by rw [hc2]; simp) hu
  · cases c with
    | nil => exact absurd (by simp at hc2; rw [← hc2]; simp) hu
    | cons x c =>
      simp at hc2
      obtain ⟨rfl, rfl⟩ := hc2
      exact hb (by simp [hc])

theorem Done.mono {t1 t u : List Out} {p q : String} (h : Done t1 t p q) : Done t1 (t ++ u) p q :=
  fun d hd => List.mem_append_left _ (h d hd)

theorem GhostPair.mono {w inn : Prop} {cpq cqp : List Msg} {t1 t2 t : List Out} {p q : String} (h : GhostPair w inn cpq cqp t1 t2 t p q)
    (u : List Out) : GhostPair w inn cpq cqp t1 (t2 ++ u) (t ++ u) p q := by
  refine ⟨fun hw => ⟨fun hr => ((h.1 hw).1 hr).mono, fun hi hc d hd => ?_⟩, fun hw => ?_⟩
  · rcases (h.1 hw).2 hi hc d hd with h | h
    · exact Or.inl (List.mem_append_left _ h)
    · exact Or.inr h
  · rcases h.2 hw with h | h
    · exact Or.inl (List.mem_append_left _ h)
    · exact Or.inr h.mono

/-- What happens elsewhere does not disturb a pending barrier. -/
theorem Ghost.of_pairs {n n' : Net} {t : List Out} (u : List Out) {p : String} (h : Ghost n t p)
    (hc : (n'.node p).completion = (n.node p).completion) (hu : ∀ k, Out.started p k ∉ u)
    (hp : ∀ q t1 t2, connectedTo t1 p q = true →
      GhostPair ((n.node p).waiting q) (p ∈ n.peers q) (n.chan p q) (n.chan q p) t1 t2 t p q →
      GhostPair ((n'.node p).waiting q) (p ∈ n'.peers q) (n'.chan p q) (n'.chan q p) t1 (t2 ++ u) (t ++ u) p q) :
    Ghost n' (t ++ u) p := by
  obtain ⟨t1, t2, h1, h2, h3⟩ := h
  refine ⟨t1, t2 ++ u, by rw [h1, hc]; simp, ?_, fun q hq => hp q t1 t2 hq (h3 q hq)⟩
  intro k hk
  rcases List.mem_append.mp hk with hk | hk
  · exact h2 k hk
  · exact hu k hk

/-! ### The invariant -/

theorem GhostPair.congr {w w' inn inn' : Prop} {cpq cpq' cqp cqp' : List Msg} {t1 t2 t : List Out} {p q : String}
    (h : GhostPair w inn cpq cqp t1 t2 t p q) (hw : w' ↔ w) (hi : inn' → inn) (hr : repliesOf cqp' = repliesOf cqp)
    (hc : callsOf cpq' = callsOf cpq) (hb : callsOf cpq ≠ [] → beforeCall cpq' = beforeCall cpq) :
    GhostPair w' inn' cpq' cqp' t1 t2 t p q := by
  refine ⟨fun hw' => ⟨fun hr' => (h.1 (hw.mp hw')).1 (hr ▸ hr'), fun hi' hc' => ?_⟩, fun hw' => h.2 fun hh => hw' (hw.mpr hh)⟩
  rw [hc] at hc'
  rw [hb hc']
  exact (h.1 (hw.mp hw')).2 (hi hi') hc'

theorem PairOk.congr {w w' out out' inn inn' : Prop} {u u' : Nat} {cpq cpq' cqp cqp' : List Msg} (h : PairOk w u out inn cpq cqp)
    (hw : w' ↔ w) (hu : u' = u) (ho : out' ↔ out) (hi : inn' ↔ inn) (hr : repliesOf cqp' = repliesOf cqp)
    (hc : callsOf cpq' = callsOf cpq) : PairOk w' u' out' inn' cpq' cqp' := by
  intro hout
  have := h (ho.mp hout)
  rw [hr, hc, hu, hw, hi]
  exact this

/-- Nothing but the trace changes, by observations of no interest. -/
theorem Inv.frame {n : Net} {t u : List Out} (h : Inv n t) (h1 : ∀ p q, Out.connected p q ∉ u ∧ Out.lost p q ∉ u)
    (h2 : ∀ p q d, Out.sent p q d ∉ u) (h3 : ∀ p k, Out.started p k ∉ u ∧ Out.completed p k ∉ u) : Inv n (t ++ u) := by
  have hc : ∀ p q, connectedTo (t ++ u) p q = connectedTo t p q := by
    intro p q
    rw [connectedTo_append]
    generalize connectedTo t p q = c
    clear h2 h3
    induction u generalizing c with
    | nil => rfl
    | cons o u ih =>
      rw [List.foldl_cons, ih fun p q => ⟨fun hh => (h1 p q).1 (by simp [hh]), fun hh => (h1 p q).2 (by simp [hh])⟩]
      cases o <;> simp [connStep]
      · rename_i a b; exact absurd (List.mem_cons_self ..) (h1 a b).1
      · rename_i a b; exact absurd (List.mem_cons_self ..) (h1 a b).2
  have hp : ∀ p, pending (t ++ u) p = pending t p := by
    intro p
    rw [pending_append]
    generalize pending t p = c
    clear h1 h2 hc
    induction u generalizing c with
    | nil => rfl
    | cons o u ih =>
      rw [List.foldl_cons, ih fun p q => ⟨fun hh => (h3 p q).1 (by simp [hh]), fun hh => (h3 p q).2 (by simp [hh])⟩]
      cases o <;> simp [pendStep]
      · rename_i a b; exact absurd (List.mem_cons_self ..) (h3 a b).1
      · rename_i a b; exact absurd (List.mem_cons_self ..) (h3 a b).2
  refine ⟨h.irrefl, h.ok, h.sub, fun p q => by rw [hc]; exact h.conn p q, h.pair, ?_, fun p => by rw [hp]; exact h.pend p, ?_⟩
  · intro p q d h4 h5 h6
    rcases h.data p q d h4 h5 (sent_of_append h6 (h2 p q d)) with h7 | h7
    · exact Or.inl (List.mem_append_left _ h7)
    · exact Or.inr h7
  · intro p ha
    exact (h.ghost p ha).of_pairs u rfl (fun k => (h3 p k).1) fun q t1 t2 _ hg => hg.mono u

theorem inv_init : Inv {} [] := by
  constructor
  · intro p; simp
  · intro p; exact ⟨fun q => rfl, fun hh => by cases hh⟩
  · intro p q hh; exact absurd hh.1 (by simp)
  · intro p q; simp [connectedTo]
  · intro p q hh; simp at hh
  · intro p q d hh; simp at hh
  · intro p; rfl
  · intro p hh; cases hh

theorem inv_connect {n : Net} {t : List Out} (h : Inv n t) (a b : String) : Inv (connect n a b).1 (t ++ (connect n a b).2) := by
  unfold connect
  split
  · rw [List.append_nil]; exact h
  · rename_i hne
    have hab : a ≠ b := fun hh => hne (Or.inl hh)
    have h1 : b ∉ n.peers a := fun hh => hne (Or.inr (Or.inl hh))
    have h2 : a ∉ n.peers b := fun hh => hne (Or.inr (Or.inr hh))
    have hpeers : ∀ p q, (q ∈ (if p = a then b :: n.peers a else if p = b then a :: n.peers b else n.peers p)) ↔
        q ∈ n.peers p ∨ ((p = a ∧ q = b) ∨ (p = b ∧ q = a)) := by
      intro p q
      by_cases hp : p = a
      · subst hp; simp [hab]; exact or_comm
      · by_cases hp' : p = b
        · subst hp'; simp [hp]; exact or_comm
        · simp [hp, hp']
    have hnw : ∀ p q, ((p = a ∧ q = b) ∨ (p = b ∧ q = a)) → ¬ (n.node p).waiting q := by
      rintro p q (⟨rfl, rfl⟩ | ⟨rfl, rfl⟩) hw
      · exact h1 (h.sub _ _ hw)
      · exact h2 (h.sub _ _ hw)
    constructor
    · intro p
      dsimp only
      rw [hpeers]
      rintro (hh | ⟨rfl, rfl⟩ | ⟨rfl, rfl⟩)
      · exact h.irrefl p hh
      · exact hab rfl
      · exact hab rfl
    · exact h.ok
    · intro p q hw
      dsimp only
      rw [hpeers]
      exact Or.inl (h.sub p q hw)
    · intro p q
      dsimp only
      rw [hpeers, connectedTo_append, ← h.conn]
      simp only [List.foldl_cons, List.foldl_nil, connStep]
      grind
    · intro p q
      dsimp only
      rw [hpeers, hpeers]
      by_cases hi : (p = a ∧ q = b) ∨ (p = b ∧ q = a)
      · intro _
        have hi' : (q = a ∧ p = b) ∨ (q = b ∧ p = a) := by grind
        rw [if_pos hi, if_pos hi']
        exact ⟨fun _ => ⟨rfl, fun _ => rfl⟩, fun hw => absurd hw (hnw p q hi), fun hw => absurd hw (hnw p q hi)⟩
      · have hi' : ¬ ((q = a ∧ p = b) ∨ (q = b ∧ p = a)) := by grind
        rw [if_neg hi, if_neg hi']
        refine (h.pair p q).congr Iff.rfl rfl ?_ ?_ rfl rfl
        · simp [hi]
        · simp [hi']
    · intro p q d h3 h4 h5
      dsimp only at h3 h4 ⊢
      rw [hpeers] at h3 h4
      by_cases hi : (p = a ∧ q = b) ∨ (p = b ∧ q = a)
      · refine absurd h5 (not_sent_of_connected ?_ (by simp))
        rcases hi with ⟨rfl, rfl⟩ | ⟨rfl, rfl⟩ <;> simp
      · have hi' : ¬ ((q = a ∧ p = b) ∨ (q = b ∧ p = a)) := by grind
        rw [if_neg hi]
        rcases h.data p q d (h3.resolve_right hi) (h4.resolve_right hi') (sent_of_append h5 (by simp)) with h7 | h7
        · exact Or.inl (List.mem_append_left _ h7)
        · exact Or.inr h7
    · intro p
      rw [pending_append]
      exact h.pend p
    · intro p ha
      refine (h.ghost p ha).of_pairs _ rfl (fun k => by simp) fun q t1 t2 _ hg => ?_
      dsimp only
      rw [hpeers]
      by_cases hi : (p = a ∧ q = b) ∨ (p = b ∧ q = a)
      · exact ⟨fun hw => absurd hw (hnw p q hi), (hg.mono _).2⟩
      · have hi' : ¬ ((q = a ∧ p = b) ∨ (q = b ∧ p = a)) := by grind
        rw [if_neg hi, if_neg hi']
        exact (hg.mono _).congr Iff.rfl (fun hh => hh.resolve_right hi') rfl rfl (fun _ => rfl)

theorem inv_lose {n : Net} {t : List Out} (h : Inv n t) (a b : String) : Inv (lose n a b).1 (t ++ (lose n a b).2) := by
  unfold lose
  split
  · rename_i hb
    have hab : a ≠ b := fun hh => h.irrefl a (hh ▸ hb)
    -- the node afterwards
    obtain ⟨x, outs, hx, hxok, hxw, hxu, hxc, hxa, hxp⟩ : ∃ x outs, (n.node a).onRemoval b = (x, outs) ∧ x.Ok ∧
        (∀ q, x.waiting q ↔ (n.node a).waiting q ∧ q ≠ b) ∧ x.uuid = (n.node a).uuid ∧ x.completion = (n.node a).completion ∧
        (x.active = true → (n.node a).active = true) ∧
        (outs.map (Out.completed a)).foldl (pendStep a) (pending t a) = if x.active then some x.completion else none := by
      by_cases hw : (n.node a).waiting b
      · refine ⟨_, _, onRemoval_waiting _ _ (h.ok a) hw, answered_ok _ _ (h.ok a) hw.1, fun q => answered_waiting _ _ _ hw.1, rfl, rfl,
          fun _ => hw.1, ?_⟩
        rw [h.pend a, if_pos hw.1]
        unfold Node.done Node.answered
        cases he : ((n.node a).expected.filter (fun x => decide (x ≠ b))).isEmpty
        · simp
        · simp [pendStep]
      · refine ⟨_, _, onRemoval_idle _ _ (h.ok a) hw, h.ok a, fun q => ?_, rfl, rfl, id, ?_⟩
        · constructor
          · intro hh; exact ⟨hh, fun hq => hw (hq ▸ hh)⟩
          · exact fun hh => hh.1
        · exact h.pend a
    rw [hx]
    dsimp only
    have hpeers : ∀ p q, (q ∈ (if p = a then (n.peers a).filter (· ≠ b) else n.peers p)) ↔ q ∈ n.peers p ∧ ¬ (p = a ∧ q = b) := by
      intro p q
      by_cases hp : p = a
      · subst hp; simp
      · simp [hp]
    have hnode : ∀ p, p ≠ a → (setChan (setNode n a x) b a []).node p = n.node p := by intro p hp; simp [setChan, setNode, hp]
    have hnodea : (setChan (setNode n a x) b a []).node a = x := by simp [setChan, setNode]
    have hwait : ∀ p q, ((setChan (setNode n a x) b a []).node p).waiting q ↔ (n.node p).waiting q ∧ ¬ (p = a ∧ q = b) := by
      intro p q
      by_cases hp : p = a
      · subst hp; rw [hnodea, hxw]; simp
      · rw [hnode p hp]; simp [hp]
    have huuid : ∀ p, ((setChan (setNode n a x) b a []).node p).uuid = (n.node p).uuid := by
      intro p
      by_cases hp : p = a
      · subst hp; rw [hnodea, hxu]
      · rw [hnode p hp]
    have hcompl : ∀ p, ((setChan (setNode n a x) b a []).node p).completion = (n.node p).completion := by
      intro p
      by_cases hp : p = a
      · subst hp; rw [hnodea, hxc]
      · rw [hnode p hp]
    have hchan : ∀ p q, (setChan (setNode n a x) b a []).chan p q = if p = b ∧ q = a then [] else n.chan p q := fun p q => rfl
    have hpassive : ∀ l : List Nat, ∀ p q c, (l.map (Out.completed a)).foldl (connStep p q) c = c := by
      intro l p q c
      induction l generalizing c with
      | nil => rfl
      | cons k l ih => rw [List.map_cons, List.foldl_cons, ih]; rfl
    constructor
    · intro p
      dsimp only
      rw [hpeers]
      exact fun hh => h.irrefl p hh.1
    · intro p
      dsimp only
      by_cases hp : p = a
      · subst hp; rw [hnodea]; exact hxok
      · rw [hnode p hp]; exact h.ok p
    · intro p q hw
      dsimp only at hw ⊢
      rw [hwait] at hw
      rw [hpeers]
      exact ⟨h.sub p q hw.1, hw.2⟩
    · intro p q
      dsimp only
      rw [hpeers, connectedTo_append, ← h.conn, List.foldl_cons, hpassive]
      simp only [connStep]
      grind
    · intro p q
      dsimp only
      rw [hpeers, hpeers, hwait, huuid, hchan, hchan]
      by_cases h1 : p = a ∧ q = b
      · intro hh; exact absurd h1 hh.2
      · by_cases h2 : p = b ∧ q = a
        · rw [if_pos h2]
          have h3 : ¬ (q = b ∧ p = a) := by grind
          rw [if_neg h3]
          intro hh
          obtain ⟨k1, k2, k3⟩ := h.pair p q hh.1
          refine ⟨fun hw => ⟨(k1 fun hw' => hw ⟨hw', h1⟩).1, fun _ => rfl⟩, fun _ hi => absurd ⟨h2.2, h2.1⟩ hi.2, fun hw _ => ?_⟩
          by_cases hi : p ∈ n.peers q
          · rcases k2 hw.1 hi with k | k
            · exact Or.inl k.2
            · exact Or.inr k.2
          · exact k3 hw.1 hi
        · rw [if_neg h2]
          have h3 : ¬ (q = b ∧ p = a) := by grind
          rw [if_neg h3]
          refine (h.pair p q).congr ?_ rfl ?_ ?_ rfl rfl
          · simp [h1]
          · simp [h1]
          · have : ¬ (q = a ∧ p = b) := by grind
            simp [this]
    · intro p q d h3 h4 h5
      dsimp only at h3 h4 ⊢
      rw [hpeers] at h3 h4
      rw [hchan, if_neg (fun hh => h4.2 ⟨hh.2, hh.1⟩)]
      rcases h.data p q d h3.1 h4.1 (sent_of_append h5 (by simp)) with h7 | h7
      · exact Or.inl (List.mem_append_left _ h7)
      · exact Or.inr h7
    · intro p
      dsimp only
      rw [pending_append, List.foldl_cons]
      change (outs.map (Out.completed a)).foldl (pendStep p) (pending t p) = _
      by_cases hp : p = a
      · subst hp; rw [hnodea]; exact hxp
      · rw [hnode p hp, h.pend p]
        generalize (if (n.node p).active then some (n.node p).completion else none) = c
        clear hx hxp
        induction outs generalizing c with
        | nil => rfl
        | cons k l ih => rw [List.map_cons, List.foldl_cons, ih]; simp [pendStep, Ne.symm hp]
    · intro p ha
      have ha' : (n.node p).active = true := by
        dsimp only at ha
        by_cases hp : p = a
        · subst hp; rw [hnodea] at ha; exact hxa ha
        · rwa [hnode p hp] at ha
      refine (h.ghost p ha').of_pairs _ (hcompl p) (fun k => by simp) fun q t1 t2 _ hg => ?_
      dsimp only
      rw [hwait, hpeers, hchan, hchan]
      by_cases h1 : p = a ∧ q = b
      · refine ⟨fun hw => absurd h1 hw.2, fun _ => Or.inl ?_⟩
        rw [h1.1, h1.2]; simp
      · have h3 : ¬ (q = b ∧ p = a) := by grind
        rw [if_neg h3]
        have hg' := hg.mono (Out.lost a b :: outs.map (Out.completed a))
        by_cases h2 : p = b ∧ q = a
        · refine ⟨fun hw => ⟨(hg'.1 hw.1).1, fun hi => absurd ⟨h2.2, h2.1⟩ hi.2⟩, fun hw => hg'.2 fun hw' => hw ⟨hw', h1⟩⟩
        · rw [if_neg h2]
          exact hg'.congr (by simp [h1]) (fun hh => hh.1) rfl rfl (fun _ => rfl)
  · rw [List.append_nil]; exact h

theorem inv_send {n : Net} {t : List Out} (h : Inv n t) (a : String) : Inv (send n a).1 (t ++ (send n a).2) := by
  unfold send
  have hchan : ∀ p q, (broadcast n a (.data n.nextData)).chan p q =
      if p = a ∧ q ∈ n.peers a then n.chan p q ++ [.data n.nextData] else n.chan p q := fun p q => rfl
  have hcalls : ∀ p q, callsOf ((broadcast n a (.data n.nextData)).chan p q) = callsOf (n.chan p q) := by
    intro p q
    rw [hchan]
    split
    · rw [callsOf_append]; simp [callsOf]
    · rfl
  have hreplies : ∀ p q, repliesOf ((broadcast n a (.data n.nextData)).chan p q) = repliesOf (n.chan p q) := by
    intro p q
    rw [hchan]
    split
    · rw [repliesOf_append]; simp [repliesOf]
    · rfl
  have hbefore : ∀ p q, callsOf (n.chan p q) ≠ [] → beforeCall ((broadcast n a (.data n.nextData)).chan p q) = beforeCall (n.chan p q) := by
    intro p q hc
    rw [hchan]
    split
    · exact beforeCall_append _ _ hc
    · rfl
  constructor
  · exact h.irrefl
  · exact h.ok
  · exact h.sub
  · intro p q
    rw [connectedTo_append]
    have : ∀ (l : List String) c, (l.map (fun q => Out.sent a q n.nextData)).foldl (connStep p q) c = c := by
      intro l c
      induction l generalizing c with
      | nil => rfl
      | cons k l ih => rw [List.map_cons, List.foldl_cons, ih]; rfl
    rw [this]
    exact h.conn p q
  · intro p q
    exact (h.pair p q).congr Iff.rfl rfl Iff.rfl Iff.rfl (hreplies q p) (hcalls p q)
  · intro p q d h3 h4 h5
    change q ∈ n.peers p at h3
    change p ∈ n.peers q at h4
    dsimp only
    rw [hchan]
    by_cases hs : Out.sent p q d ∈ (n.peers a).map (fun q => Out.sent a q n.nextData)
    · simp at hs
      obtain ⟨q', h6, rfl, rfl, rfl⟩ := hs
      rw [if_pos ⟨rfl, h6⟩]
      exact Or.inr (by simp)
    · rcases h.data p q d h3 h4 (sent_of_append h5 hs) with h7 | h7
      · exact Or.inl (List.mem_append_left _ h7)
      · refine Or.inr ?_
        split
        · simp [h7]
        · exact h7
  · intro p
    rw [pending_append]
    have : ∀ (l : List String) c, (l.map (fun q => Out.sent a q n.nextData)).foldl (pendStep p) c = c := by
      intro l c
      induction l generalizing c with
      | nil => rfl
      | cons k l ih => rw [List.map_cons, List.foldl_cons, ih]; rfl
    rw [this]
    exact h.pend p
  · intro p ha
    refine (h.ghost p ha).of_pairs _ rfl (fun k => by simp) fun q t1 t2 _ hg => ?_
    exact (hg.mono _).congr Iff.rfl id (hreplies q p) (hcalls p q) (hbefore p q)

theorem inv_request {n : Net} {t : List Out} (h : Inv n t) (a : String) (k : Nat) : Inv (request n a k).1 (t ++ (request n a k).2) := by
  unfold request
  split
  · exact h.frame (by simp) (by simp) (by simp)
  · rename_i hact
    have hact' : (n.node a).active = false := by simpa using hact
    have hidle : ∀ q, ¬ (n.node a).waiting q := fun q hw => hact hw.1
    split
    · -- nobody to wait for
      rename_i hpe
      have hnode : ∀ p, ((setNode n a { n.node a with expected := [] }).node p).active = (n.node p).active ∧
          ((setNode n a { n.node a with expected := [] }).node p).completion = (n.node p).completion ∧
          ((setNode n a { n.node a with expected := [] }).node p).uuid = (n.node p).uuid ∧
          ((setNode n a { n.node a with expected := [] }).node p).prepared = (n.node p).prepared ∧
          ∀ q, ((setNode n a { n.node a with expected := [] }).node p).waiting q ↔ (n.node p).waiting q := by
        intro p
        by_cases hp : p = a
        · subst hp
          refine ⟨by simp [setNode], by simp [setNode], by simp [setNode], by simp [setNode], fun q => ?_⟩
          constructor
          · intro hw
            have := hw.1
            simp [setNode, hact'] at this
          · exact fun hw => absurd hw (hidle q)
        · simp [setNode, hp]
      have hbase : Inv (setNode n a { n.node a with expected := [] }) t := by
        constructor
        · exact h.irrefl
        · intro p
          obtain ⟨h1, h2, h3, h4, h5⟩ := hnode p
          constructor
          · intro q; rw [h4, h3, (h.ok p).prep]; simp only [h5 q]
          · intro ha he
            rw [h1] at ha
            by_cases hp : p = a
            · subst hp; rw [hact'] at ha; cases ha
            · simp [setNode, hp] at he
              exact (h.ok p).ne ha he
        · intro p q hw; exact h.sub p q (((hnode p).2.2.2.2 q).mp hw)
        · exact h.conn
        · intro p q
          exact (h.pair p q).congr ((hnode p).2.2.2.2 q) (hnode p).2.2.1 Iff.rfl Iff.rfl rfl rfl
        · exact h.data
        · intro p; rw [(hnode p).1, (hnode p).2.1]; exact h.pend p
        · intro p ha
          rw [(hnode p).1] at ha
          have := (h.ghost p ha).of_pairs (n' := setNode n a { n.node a with expected := [] }) [] (hnode p).2.1 (by simp)
            fun q t1 t2 _ hg => by
              have := hg.mono []
              exact this.congr ((hnode p).2.2.2.2 q) id rfl rfl (fun _ => rfl)
          rwa [List.append_nil] at this
      generalize hm : setNode n a { n.node a with expected := [] } = m at *
      have hma : (m.node a).active = false := by rw [(hnode a).1]; exact hact'
      constructor
      · exact hbase.irrefl
      · exact hbase.ok
      · exact hbase.sub
      · intro p q
        rw [connectedTo_append]
        exact hbase.conn p q
      · exact hbase.pair
      · intro p q d h4 h5 h6
        rcases hbase.data p q d h4 h5 (sent_of_append h6 (by simp)) with h7 | h7
        · exact Or.inl (List.mem_append_left _ h7)
        · exact Or.inr h7
      · intro p
        rw [pending_append]
        simp only [List.foldl_cons, List.foldl_nil, pendStep]
        by_cases hp : a = p
        · subst hp; rw [if_pos rfl, hma]; rfl
        · rw [if_neg hp, if_neg hp]; exact hbase.pend p
      · intro p ha
        refine (hbase.ghost p ha).of_pairs _ rfl (fun j => ?_) fun q t1 t2 _ hg => hg.mono _
        have : p ≠ a := by rintro rfl; rw [hma] at ha; cases ha
        simp [this]
    · rename_i hpe
      have hnode : ∀ p, p ≠ a → (setNode n a ((n.node a).call (n.peers a) k n.nextUuid)).node p = n.node p := by
        intro p hp; simp [setNode, hp]
      have hnodea : (setNode n a ((n.node a).call (n.peers a) k n.nextUuid)).node a = (n.node a).call (n.peers a) k n.nextUuid := by
        simp [setNode]
      generalize hm : setNode n a ((n.node a).call (n.peers a) k n.nextUuid) = m at *
      have hmp : m.peers = n.peers := by rw [← hm]; rfl
      have hmc : m.chan = n.chan := by rw [← hm]; rfl
      have hchan : ∀ p q, (broadcast m a (.call n.nextUuid)).chan p q =
          if p = a ∧ q ∈ n.peers a then n.chan p q ++ [.call n.nextUuid] else n.chan p q := fun p q => by
        unfold broadcast; rw [hmp, hmc]
      have hreplies : ∀ p q, repliesOf ((broadcast m a (.call n.nextUuid)).chan p q) = repliesOf (n.chan p q) := by
        intro p q
        rw [hchan]
        split
        · rw [repliesOf_append]; simp [repliesOf]
        · rfl
      have hother : ∀ p q, p ≠ a → (broadcast m a (.call n.nextUuid)).chan p q = n.chan p q := by
        intro p q hp; rw [hchan, if_neg (fun hh => hp hh.1)]
      have hpeers : (broadcast m a (.call n.nextUuid)).peers = n.peers := hmp
      have hnode' : (broadcast m a (.call n.nextUuid)).node = m.node := rfl
      have hwa : ∀ q, ((n.node a).call (n.peers a) k n.nextUuid).waiting q ↔ q ∈ n.peers a := by
        intro q; unfold Node.waiting Node.call; simp
      constructor
      · dsimp only; rw [hpeers]; exact h.irrefl
      · intro p
        dsimp only
        rw [hnode']
        by_cases hp : p = a
        · subst hp; rw [hnodea]; exact call_ok _ _ _ _ (h.ok p) hact' hpe
        · rw [hnode p hp]; exact h.ok p
      · intro p q hw
        dsimp only at hw ⊢
        rw [hnode'] at hw
        rw [hpeers]
        by_cases hp : p = a
        · subst hp; rw [hnodea, hwa] at hw; exact hw
        · rw [hnode p hp] at hw; exact h.sub p q hw
      · intro p q
        rw [connectedTo_append]
        dsimp only
        rw [hpeers]
        exact h.conn p q
      · intro p q
        dsimp only
        rw [hpeers, hnode']
        by_cases hp : p = a
        · subst hp
          rw [hnodea, hwa]
          intro hout
          have ho := (h.pair p q hout).1 (hidle q)
          refine ⟨fun hw => absurd hout hw, fun _ hi => Or.inl ⟨?_, ?_⟩, fun _ _ => Or.inl ?_⟩
          · rw [hchan, if_pos ⟨rfl, hout⟩, callsOf_append, ho.2 hi]; rfl
          · rw [hreplies]; exact ho.1
          · rw [hreplies]; exact ho.1
        · rw [hnode p hp]
          exact (h.pair p q).congr Iff.rfl rfl Iff.rfl Iff.rfl (hreplies q p) (by rw [hother p q hp])
      · intro p q d h3 h4 h5
        dsimp only at h3 h4 ⊢
        rw [hpeers] at h3 h4
        rw [hchan]
        rcases h.data p q d h3 h4 (sent_of_append h5 (by simp)) with h7 | h7
        · exact Or.inl (List.mem_append_left _ h7)
        · refine Or.inr ?_
          split
          · simp [h7]
          · exact h7
      · intro p
        dsimp only
        rw [pending_append, hnode']
        simp only [List.foldl_cons, List.foldl_nil, pendStep]
        by_cases hp : a = p
        · subst hp; rw [if_pos rfl, hnodea]; rfl
        · rw [if_neg hp, hnode p (Ne.symm hp)]; exact h.pend p
      · intro p ha
        dsimp only at ha
        rw [hnode'] at ha
        by_cases hp : p = a
        · subst hp
          refine ⟨t, [], by dsimp only; rw [hnode', hnodea]; rfl, by simp, fun q hq => ?_⟩
          dsimp only
          rw [hnode', hnodea, hwa, hpeers]
          have hqp := (h.conn p q).mp hq
          have ho := (h.pair p q hqp).1 (hidle q)
          refine ⟨fun _ => ⟨fun hr => absurd (by rw [hreplies]; exact ho.1) hr, fun hi hc d hd => ?_⟩, fun hw => absurd hqp hw⟩
          rcases h.data p q d hqp hi hd with h7 | h7
          · exact Or.inl (List.mem_append_left _ h7)
          · refine Or.inr ?_
            rw [hchan, if_pos ⟨rfl, hqp⟩]
            exact mem_beforeCall _ _ h7 (ho.2 hi) _
        · rw [hnode p hp] at ha
          refine (h.ghost p ha).of_pairs _ (by dsimp only; rw [hnode', hnode p hp]) (fun j => by simp [hp]) fun q t1 t2 _ hg => ?_
          dsimp only
          rw [hnode', hnode p hp, hpeers]
          exact (hg.mono _).congr Iff.rfl id (hreplies q p) (by rw [hother p q hp]) (fun _ => by rw [hother p q hp])

theorem inv_deliver {n : Net} {t : List Out} (h : Inv n t) (a b : String) : Inv (deliver n a b).1 (t ++ (deliver n a b).2) := by
  unfold deliver
  split
  · rename_i hin
    have hab : a ≠ b := fun hh => h.irrefl b (hh ▸ hin)
    split
    · rw [List.append_nil]; exact h
    · rename_i m rest hch
      have hchan : ∀ p q, (setChan n a b rest).chan p q = if p = a ∧ q = b then rest else n.chan p q := fun p q => rfl
      cases m with
      | data d =>
        unfold process
        dsimp only
        have hcalls : ∀ p q, callsOf ((setChan n a b rest).chan p q) = callsOf (n.chan p q) := by
          intro p q
          rw [hchan]
          split
          · rename_i hh; rw [hh.1, hh.2, hch]; rfl
          · rfl
        have hreplies : ∀ p q, repliesOf ((setChan n a b rest).chan p q) = repliesOf (n.chan p q) := by
          intro p q
          rw [hchan]
          split
          · rename_i hh; rw [hh.1, hh.2, hch]; rfl
          · rfl
        constructor
        · exact h.irrefl
        · exact h.ok
        · exact h.sub
        · intro p q; rw [connectedTo_append]; exact h.conn p q
        · intro p q
          exact (h.pair p q).congr Iff.rfl rfl Iff.rfl Iff.rfl (hreplies q p) (hcalls p q)
        · intro p q e h3 h4 h5
          rw [hchan]
          rcases h.data p q e h3 h4 (sent_of_append h5 (by simp)) with h7 | h7
          · exact Or.inl (List.mem_append_left _ h7)
          · split
            · rename_i hh
              rw [hh.1, hh.2] at h7 ⊢
              rw [hch] at h7
              rcases List.mem_cons.mp h7 with h8 | h8
              · cases h8; exact Or.inl (by simp)
              · exact Or.inr h8
            · exact Or.inr h7
        · intro p; rw [pending_append]; exact h.pend p
        · intro p ha
          refine (h.ghost p ha).of_pairs _ rfl (fun k => by simp) fun q t1 t2 _ hg => ?_
          have hg' := hg.mono [Out.processed b a d]
          by_cases hpq : p = a ∧ q = b
          · refine ⟨fun hw => ⟨fun hr => (hg'.1 hw).1 (by rw [← hreplies q p]; exact hr), fun hi hc e he => ?_⟩, hg'.2⟩
            have hc' : callsOf (n.chan p q) ≠ [] := by rw [← hcalls p q]; exact hc
            rw [hchan, if_pos hpq]
            rcases (hg'.1 hw).2 hi hc' e he with h7 | h7
            · exact Or.inl h7
            · rw [hpq.1, hpq.2, hch] at h7
              rcases List.mem_cons.mp h7 with h8 | h8
              · rw [h8, hpq.1, hpq.2]; exact Or.inl (by simp)
              · exact Or.inr h8
          · exact hg'.congr Iff.rfl id (hreplies q p) (hcalls p q) (fun _ => by rw [hchan, if_neg hpq])
      | call u =>
        unfold process
        dsimp only
        rw [List.append_nil]
        have hba : (setChan n a b rest).chan b a = n.chan b a := by rw [hchan, if_neg (fun hh => hab hh.1.symm)]
        rw [hba]
        have hchan' : ∀ p q, (setChan (setChan n a b rest) b a (n.chan b a ++ [.reply u])).chan p q =
            if p = b ∧ q = a then n.chan b a ++ [.reply u] else if p = a ∧ q = b then rest else n.chan p q := fun p q => rfl
        have hab' : (setChan (setChan n a b rest) b a (n.chan b a ++ [.reply u])).chan a b = rest := by
          rw [hchan', if_neg (fun hh => hab hh.1), if_pos ⟨rfl, rfl⟩]
        have hba' : (setChan (setChan n a b rest) b a (n.chan b a ++ [.reply u])).chan b a = n.chan b a ++ [.reply u] := by
          rw [hchan', if_pos ⟨rfl, rfl⟩]
        have hoth : ∀ p q, ¬ (p = a ∧ q = b) → ¬ (p = b ∧ q = a) →
            (setChan (setChan n a b rest) b a (n.chan b a ++ [.reply u])).chan p q = n.chan p q := by
          intro p q h1 h2; rw [hchan', if_neg h2, if_neg h1]
        have hcba : callsOf (n.chan b a ++ [.reply u]) = callsOf (n.chan b a) := by rw [callsOf_append]; simp [callsOf]
        have hrab : repliesOf rest = repliesOf (n.chan a b) := by rw [hch]; rfl
        have hcab : callsOf (n.chan a b) = u :: callsOf rest := by rw [hch]; rfl
        generalize hm : setChan (setChan n a b rest) b a (n.chan b a ++ [.reply u]) = m at *
        have hmn : m.node = n.node := by rw [← hm]; rfl
        have hmp : m.peers = n.peers := by rw [← hm]; rfl
        constructor
        · rw [hmp]; exact h.irrefl
        · rw [hmn]; exact h.ok
        · rw [hmn, hmp]; exact h.sub
        · rw [hmp]; exact h.conn
        · intro p q
          rw [hmn, hmp]
          by_cases h1 : p = a ∧ q = b
          · obtain ⟨rfl, rfl⟩ := h1
            rw [hab', hba']
            intro hout
            obtain ⟨k1, k2, k3⟩ := h.pair p q hout
            rw [hcab] at k1 k2
            refine ⟨fun hw => absurd ((k1 hw).2 hin) (by simp), fun hw _ => ?_, fun _ hi => absurd hin hi⟩
            rcases k2 hw hin with k | k
            · rw [repliesOf_append, k.2]
              have k' := k.1
              simp at k'
              exact Or.inr ⟨k'.2, by rw [k'.1]; rfl⟩
            · exact absurd k.1 (by simp)
          · by_cases h2 : p = b ∧ q = a
            · obtain ⟨rfl, rfl⟩ := h2
              rw [hba', hab']
              exact (h.pair p q).congr Iff.rfl rfl Iff.rfl Iff.rfl hrab hcba
            · rw [hoth p q h1 h2, hoth q p (fun hh => h2 ⟨hh.2, hh.1⟩) (fun hh => h1 ⟨hh.2, hh.1⟩)]
              exact h.pair p q
        · intro p q d h3 h4 h5
          rw [hmp] at h3 h4
          rcases h.data p q d h3 h4 h5 with h7 | h7
          · exact Or.inl h7
          · refine Or.inr ?_
            by_cases h1 : p = a ∧ q = b
            · obtain ⟨rfl, rfl⟩ := h1
              rw [hab']
              rw [hch] at h7
              simpa using h7
            · by_cases h2 : p = b ∧ q = a
              · obtain ⟨rfl, rfl⟩ := h2
                rw [hba']
                exact List.mem_append_left _ h7
              · rw [hoth p q h1 h2]; exact h7
        · rw [hmn]; exact h.pend
        · intro p ha
          rw [hmn] at ha
          have := (h.ghost p ha).of_pairs (n' := m) [] (by rw [hmn]) (by simp) fun q t1 t2 _ hg => by
            have hg' := hg.mono []
            rw [hmn, hmp]
            by_cases h1 : p = a ∧ q = b
            · obtain ⟨rfl, rfl⟩ := h1
              rw [hab', hba']
              refine ⟨fun hw => ⟨fun _ d hd => ?_, fun hi hc => ?_⟩, hg'.2⟩
              · have := (hg'.1 hw).2 hin (by rw [hcab]; simp) d hd
                rw [hch] at this
                exact this.resolve_right (by simp [beforeCall])
              · rcases (h.pair p q (h.sub p q hw)).2.1 hw hin with k | k
                · rw [hcab] at k
                  have k' := k.1
                  simp at k'
                  exact absurd k'.2 hc
                · rw [hcab] at k; exact absurd k.1 (by simp)
            · by_cases h2 : p = b ∧ q = a
              · obtain ⟨rfl, rfl⟩ := h2
                rw [hba', hab']
                exact hg'.congr Iff.rfl id hrab hcba (fun hc => beforeCall_append _ _ hc)
              · rw [hoth p q h1 h2, hoth q p (fun hh => h2 ⟨hh.2, hh.1⟩) (fun hh => h1 ⟨hh.2, hh.1⟩)]
                exact hg'
          rwa [List.append_nil] at this
      | reply u =>
        -- the reply is the one `b` is waiting for
        have hpair := h.pair b a hin
        have hrep : repliesOf (n.chan a b) = u :: repliesOf rest := by rw [hch]; rfl
        have hw : (n.node b).waiting a := by
          apply Classical.byContradiction
          intro hw
          have := (hpair.1 hw).1
          rw [hrep] at this
          cases this
        have hu : u = (n.node b).uuid ∧ repliesOf rest = [] ∧ (b ∈ n.peers a → callsOf (n.chan b a) = []) := by
          by_cases hi : b ∈ n.peers a
          · rcases hpair.2.1 hw hi with k | k
            · rw [hrep] at k; exact absurd k.2 (by simp)
            · rw [hrep] at k
              have k2 := k.2
              simp at k2
              exact ⟨k2.1, k2.2, fun _ => k.1⟩
          · rcases hpair.2.2 hw hi with k | k
            · rw [hrep] at k; exact absurd k (by simp)
            · rw [hrep] at k
              simp at k
              exact ⟨k.1, k.2, fun hh => absurd hh hi⟩
        obtain ⟨rfl, hrest, hcba⟩ := hu
        have hproc : process (setChan n a b rest) a b (.reply (n.node b).uuid) =
            (setNode (setChan n a b rest) b ((n.node b).answered a), ((n.node b).done a).toList.map (Out.completed b)) := by
          unfold process
          have hsame : ((setChan n a b rest).node b) = n.node b := rfl
          dsimp only
          rw [hsame, receiveReturn_eq _ _ (h.ok b) hw]
        rw [hproc]
        dsimp only
        have hnode : ∀ p, p ≠ b → (setNode (setChan n a b rest) b ((n.node b).answered a)).node p = n.node p := by
          intro p hp; simp [setNode, setChan, hp]
        have hnodeb : (setNode (setChan n a b rest) b ((n.node b).answered a)).node b = (n.node b).answered a := by simp [setNode]
        have hwait : ∀ p q, ((setNode (setChan n a b rest) b ((n.node b).answered a)).node p).waiting q ↔
            (n.node p).waiting q ∧ ¬ (p = b ∧ q = a) := by
          intro p q
          by_cases hp : p = b
          · subst hp; rw [hnodeb, answered_waiting _ _ _ hw.1]; simp
          · rw [hnode p hp]; simp [hp]
        have huuid : ∀ p, ((setNode (setChan n a b rest) b ((n.node b).answered a)).node p).uuid = (n.node p).uuid := by
          intro p
          by_cases hp : p = b
          · subst hp; rw [hnodeb]; rfl
          · rw [hnode p hp]
        have hcompl : ∀ p, ((setNode (setChan n a b rest) b ((n.node b).answered a)).node p).completion = (n.node p).completion := by
          intro p
          by_cases hp : p = b
          · subst hp; rw [hnodeb]; rfl
          · rw [hnode p hp]
        have hcalls : ∀ p q, callsOf ((setNode (setChan n a b rest) b ((n.node b).answered a)).chan p q) = callsOf (n.chan p q) := by
          intro p q
          change callsOf ((setChan n a b rest).chan p q) = _
          rw [hchan]
          split
          · rename_i hh; rw [hh.1, hh.2, hch]; rfl
          · rfl
        have hbefore : ∀ p q, beforeCall ((setNode (setChan n a b rest) b ((n.node b).answered a)).chan p q) =
            beforeCall (n.chan p q) := by
          intro p q
          change beforeCall ((setChan n a b rest).chan p q) = _
          rw [hchan]
          split
          · rename_i hh; rw [hh.1, hh.2, hch]; rfl
          · rfl
        have hreplies : ∀ p q, ¬ (p = a ∧ q = b) →
            repliesOf ((setNode (setChan n a b rest) b ((n.node b).answered a)).chan p q) = repliesOf (n.chan p q) := by
          intro p q hpq
          change repliesOf ((setChan n a b rest).chan p q) = _
          rw [hchan, if_neg hpq]
        have hchan' : ∀ p q, (setNode (setChan n a b rest) b ((n.node b).answered a)).chan p q =
            if p = a ∧ q = b then rest else n.chan p q := fun p q => rfl
        have houts : ∀ o ∈ ((n.node b).done a).toList.map (Out.completed b), ∃ k, o = .completed b k := by
          intro o ho
          obtain ⟨k, _, rfl⟩ := List.mem_map.mp ho
          exact ⟨k, rfl⟩
        have hpend : (((n.node b).done a).toList.map (Out.completed b)).foldl (pendStep b) (pending t b) =
            if ((n.node b).answered a).active then some ((n.node b).answered a).completion else none := by
          rw [h.pend b, if_pos hw.1]
          unfold Node.done Node.answered
          cases he : ((n.node b).expected.filter (fun x => decide (x ≠ a))).isEmpty
          · simp
          · simp [pendStep]
        have hpend' : ∀ p, p ≠ b → (((n.node b).done a).toList.map (Out.completed b)).foldl (pendStep p) (pending t p) = pending t p := by
          intro p hp
          cases (n.node b).done a with
          | none => rfl
          | some k => simp [pendStep, Ne.symm hp]
        have hconn : ∀ p q c, (((n.node b).done a).toList.map (Out.completed b)).foldl (connStep p q) c = c := by
          intro p q c
          cases (n.node b).done a <;> rfl
        generalize ((n.node b).done a).toList.map (Out.completed b) = outs at *
        generalize hm : setNode (setChan n a b rest) b ((n.node b).answered a) = m at *
        have hmp : m.peers = n.peers := by rw [← hm]; rfl
        constructor
        · rw [hmp]; exact h.irrefl
        · intro p
          by_cases hp : p = b
          · subst hp; rw [hnodeb]; exact answered_ok _ _ (h.ok p) hw.1
          · rw [hnode p hp]; exact h.ok p
        · intro p q hw'
          rw [hmp]
          exact h.sub p q ((hwait p q).mp hw').1
        · intro p q
          rw [connectedTo_append, hconn, hmp]
          exact h.conn p q
        · intro p q
          rw [hmp, hwait, huuid]
          by_cases h1 : p = b ∧ q = a
          · obtain ⟨rfl, rfl⟩ := h1
            intro _
            refine ⟨fun _ => ⟨?_, fun hi => ?_⟩, fun hh => absurd ⟨rfl, rfl⟩ hh.2, fun hh => absurd ⟨rfl, rfl⟩ hh.2⟩
            · rw [hchan', if_pos ⟨rfl, rfl⟩]; exact hrest
            · rw [hcalls]; exact hcba hi
          · refine (h.pair p q).congr ?_ rfl Iff.rfl Iff.rfl (hreplies q p (fun hh => h1 ⟨hh.2, hh.1⟩)) (hcalls p q)
            simp [h1]
        · intro p q d h3 h4 h5
          rw [hmp] at h3 h4
          rcases h.data p q d h3 h4 (sent_of_append h5 (fun hh => by obtain ⟨k, hk⟩ := houts _ hh; cases hk)) with h7 | h7
          · exact Or.inl (List.mem_append_left _ h7)
          · refine Or.inr ?_
            rw [hchan']
            split
            · rename_i hh
              rw [hh.1, hh.2, hch] at h7
              simpa using h7
            · exact h7
        · intro p
          rw [pending_append]
          by_cases hp : p = b
          · subst hp; rw [hnodeb]; exact hpend
          · rw [hnode p hp, hpend' p hp]; exact h.pend p
        · intro p ha
          have ha' : (n.node p).active = true := by
            by_cases hp : p = b
            · subst hp; exact hw.1
            · rwa [hnode p hp] at ha
          refine (h.ghost p ha').of_pairs _ (hcompl p) (fun k hh => by obtain ⟨j, hj⟩ := houts _ hh; cases hj)
            fun q t1 t2 _ hg => ?_
          rw [hmp, hwait]
          have hg' := hg.mono outs
          by_cases h1 : p = b ∧ q = a
          · obtain ⟨rfl, rfl⟩ := h1
            exact ⟨fun hh => absurd ⟨rfl, rfl⟩ hh.2, fun _ => Or.inr ((hg'.1 hw).1 (by rw [hrep]; simp))⟩
          · exact hg'.congr (by simp [h1]) id (hreplies q p (fun hh => h1 ⟨hh.2, hh.1⟩)) (hcalls p q) (fun _ => hbefore p q)
  · rw [List.append_nil]; exact h

theorem run_append (h : List Event) (e : Event) : run (h ++ [e]) = ((on (run h).1 e).1, (run h).2 ++ (on (run h).1 e).2) := by
  simp [run]

theorem inv_on {n : Net} {t : List Out} (h : Inv n t) (e : Event) : Inv (on n e).1 (t ++ (on n e).2) := by
  cases e with
  | connect p q => exact inv_connect h p q
  | lose p q => exact inv_lose h p q
  | send p => exact inv_send h p
  | request p k => exact inv_request h p k
  | deliver p q => exact inv_deliver h p q

theorem inv_run (h : List Event) : Inv (run h).1 (run h).2 := by
  rw [← List.reverse_reverse h]
  induction h.reverse with
  | nil => exact inv_init
  | cons e h ih => rw [List.reverse_cons, run_append]; exact inv_on ih e

/-! ### Completions -/

/-- Why a barrier completes. -/
def Reason (a : List Out) (p : String) (k : Nat) : Prop :=
  ∃ t1 t2, a = t1 ++ .started p k :: t2 ∧ (∀ j, Out.started p j ∉ t2) ∧
    ∀ q, connectedTo t1 p q = true → Out.lost p q ∈ t2 ∨ Done t1 a p q

theorem done_reason {n : Net} {t : List Out} (h : Inv n t) (p q : String) (k : Nat) (hw : (n.node p).waiting q)
    (hd : (n.node p).done q = some k) (u : List Out) (hu : ∀ j, Out.started p j ∉ u)
    (hq : ∀ t1 t2, t = t1 ++ .started p k :: t2 →
      GhostPair ((n.node p).waiting q) (p ∈ n.peers q) (n.chan p q) (n.chan q p) t1 t2 t p q → Out.lost p q ∈ t2 ++ u ∨ Done t1 (t ++ u) p q) :
    pending t p = some k ∧ Reason (t ++ u) p k := by
  unfold Node.done at hd
  split at hd
  · rename_i he
    have hk : (n.node p).completion = k := Option.some.inj hd
    refine ⟨by rw [h.pend, if_pos hw.1, hk], ?_⟩
    obtain ⟨t1, t2, h1, h2, h3⟩ := h.ghost p hw.1
    rw [hk] at h1
    refine ⟨t1, t2 ++ u, by rw [h1]; simp, ?_, fun r hr => ?_⟩
    · intro j hj
      rcases List.mem_append.mp hj with hj | hj
      · exact h2 j hj
      · exact hu j hj
    · by_cases hrq : r = q
      · subst hrq; exact hq t1 t2 h1 (h3 r hr)
      · have hnw : ¬ (n.node p).waiting r := by
          intro hh
          have hm : r ∈ (n.node p).expected.filter (· ≠ q) := by simp [hh.2, hrq]
          rw [List.isEmpty_iff.mp he] at hm
          cases hm
        exact ((h3 r hr).mono u).2 hnw
  · cases hd

/-- What the barrier observations of one event mean. -/
theorem on_reason {n : Net} {t : List Out} (h : Inv n t) (e : Event) :
    (∀ a c p k, (on n e).2 = a ++ .completed p k :: c → pending (t ++ a) p = some k ∧ Reason (t ++ a) p k) ∧
    (∀ a c p k, (on n e).2 = a ++ .started p k :: c → pending (t ++ a) p = none) := by
  have single : ∀ {o o' : Out} {a c : List Out}, [o] = a ++ o' :: c → a = [] ∧ o = o' := by
    intro o o' a c hh
    cases a with
    | nil => simp at hh; exact ⟨rfl, hh.1⟩
    | cons x a => simp at hh
  have double : ∀ {o1 o2 o' : Out} {a c : List Out}, [o1, o2] = a ++ o' :: c → (a = [] ∧ o1 = o') ∨ (a = [o1] ∧ o2 = o') := by
    intro o1 o2 o' a c hh
    cases a with
    | nil => simp at hh; exact Or.inl ⟨rfl, hh.1⟩
    | cons x a =>
      simp at hh
      obtain ⟨rfl, hh⟩ := hh
      obtain ⟨rfl, rfl⟩ := single hh
      exact Or.inr ⟨rfl, rfl⟩
  have none' : ∀ {o' : Out} {a c : List Out}, [] = a ++ o' :: c → False := by
    intro o' a c hh; cases a <;> cases hh
  cases e with
  | connect x y =>
    change (∀ a c p k, (connect n x y).2 = _ → _) ∧ (∀ a c p k, (connect n x y).2 = _ → _)
    unfold connect
    split
    · exact ⟨fun a c p k hh => (none' hh).elim, fun a c p k hh => (none' hh).elim⟩
    · refine ⟨fun a c p k hh => ?_, fun a c p k hh => ?_⟩
      · rcases double hh with ⟨_, hh⟩ | ⟨_, hh⟩ <;> cases hh
      · rcases double hh with ⟨_, hh⟩ | ⟨_, hh⟩ <;> cases hh
  | send x =>
    change (∀ a c p k, (send n x).2 = _ → _) ∧ (∀ a c p k, (send n x).2 = _ → _)
    unfold send
    refine ⟨fun a c p k hh => ?_, fun a c p k hh => ?_⟩
    · have : Out.completed p k ∈ (n.peers x).map (fun q => Out.sent x q n.nextData) := by
        dsimp only at hh; rw [hh]; simp
      simp at this
    · have : Out.started p k ∈ (n.peers x).map (fun q => Out.sent x q n.nextData) := by
        dsimp only at hh; rw [hh]; simp
      simp at this
  | request x j =>
    change (∀ a c p k, (request n x j).2 = _ → _) ∧ (∀ a c p k, (request n x j).2 = _ → _)
    unfold request
    split
    · refine ⟨fun a c p k hh => ?_, fun a c p k hh => ?_⟩
      · obtain ⟨_, hh⟩ := single hh; cases hh
      · obtain ⟨_, hh⟩ := single hh; cases hh
    · rename_i hact
      have hpend : pending t x = none := by rw [h.pend, if_neg hact]
      split
      · rename_i hpe
        refine ⟨fun a c p k hh => ?_, fun a c p k hh => ?_⟩
        · rcases double hh with ⟨_, hh⟩ | ⟨rfl, hh⟩
          · cases hh
          · cases hh
            refine ⟨by rw [pending_append]; simp [pendStep], t, [], rfl, by simp, fun q hq => ?_⟩
            have := (h.conn x q).mp hq
            rw [hpe] at this
            cases this
        · rcases double hh with ⟨rfl, hh⟩ | ⟨_, hh⟩
          · cases hh; rw [List.append_nil]; exact hpend
          · cases hh
      · refine ⟨fun a c p k hh => ?_, fun a c p k hh => ?_⟩
        · obtain ⟨_, hh⟩ := single hh; cases hh
        · obtain ⟨rfl, hh⟩ := single hh; cases hh; rw [List.append_nil]; exact hpend
  | lose x y =>
    change (∀ a c p k, (lose n x y).2 = _ → _) ∧ (∀ a c p k, (lose n x y).2 = _ → _)
    unfold lose
    split
    · by_cases hw : (n.node x).waiting y
      · rw [onRemoval_waiting _ _ (h.ok x) hw]
        dsimp only
        cases hd : (n.node x).done y with
        | none =>
          refine ⟨fun a c p k hh => ?_, fun a c p k hh => ?_⟩
          · obtain ⟨_, hh⟩ := single hh; cases hh
          · obtain ⟨_, hh⟩ := single hh; cases hh
        | some j =>
          refine ⟨fun a c p k hh => ?_, fun a c p k hh => ?_⟩
          · rcases double hh with ⟨_, hh⟩ | ⟨rfl, hh⟩
            · cases hh
            · cases hh
              have := done_reason h x y j hw hd [Out.lost x y] (by simp) (fun t1 t2 _ _ => Or.inl (by simp))
              exact ⟨by rw [pending_append]; exact this.1, this.2⟩
          · rcases double hh with ⟨_, hh⟩ | ⟨_, hh⟩ <;> cases hh
      · rw [onRemoval_idle _ _ (h.ok x) hw]
        refine ⟨fun a c p k hh => ?_, fun a c p k hh => ?_⟩
        · obtain ⟨_, hh⟩ := single hh; cases hh
        · obtain ⟨_, hh⟩ := single hh; cases hh
    · exact ⟨fun a c p k hh => (none' hh).elim, fun a c p k hh => (none' hh).elim⟩
  | deliver x y =>
    change (∀ a c p k, (deliver n x y).2 = _ → _) ∧ (∀ a c p k, (deliver n x y).2 = _ → _)
    unfold deliver
    split
    · rename_i hin
      split
      · exact ⟨fun a c p k hh => (none' hh).elim, fun a c p k hh => (none' hh).elim⟩
      · rename_i m rest hch
        cases m with
        | data d =>
          refine ⟨fun a c p k hh => ?_, fun a c p k hh => ?_⟩
          · obtain ⟨_, hh⟩ := single hh; cases hh
          · obtain ⟨_, hh⟩ := single hh; cases hh
        | call u => exact ⟨fun a c p k hh => (none' hh).elim, fun a c p k hh => (none' hh).elim⟩
        | reply u =>
          have hpair := h.pair y x hin
          have hrep : repliesOf (n.chan x y) = u :: repliesOf rest := by rw [hch]; rfl
          have hw : (n.node y).waiting x := by
            apply Classical.byContradiction
            intro hw
            have := (hpair.1 hw).1
            rw [hrep] at this
            cases this
          have hu : u = (n.node y).uuid := by
            by_cases hi : y ∈ n.peers x
            · rcases hpair.2.1 hw hi with k | k
              · rw [hrep] at k; exact absurd k.2 (by simp)
              · rw [hrep] at k
                have k2 := k.2
                simp at k2
                exact k2.1
            · rcases hpair.2.2 hw hi with k | k
              · rw [hrep] at k; exact absurd k (by simp)
              · rw [hrep] at k
                simp at k
                exact k.1
          subst hu
          have hproc : process (setChan n x y rest) x y (.reply (n.node y).uuid) =
              (setNode (setChan n x y rest) y ((n.node y).answered x), ((n.node y).done x).toList.map (Out.completed y)) := by
            unfold process
            have hsame : ((setChan n x y rest).node y) = n.node y := rfl
            dsimp only
            rw [hsame, receiveReturn_eq _ _ (h.ok y) hw]
          rw [hproc]
          dsimp only
          cases hd : (n.node y).done x with
          | none => exact ⟨fun a c p k hh => (none' hh).elim, fun a c p k hh => (none' hh).elim⟩
          | some j =>
            refine ⟨fun a c p k hh => ?_, fun a c p k hh => ?_⟩
            · obtain ⟨rfl, hh⟩ := single hh
              cases hh
              have := done_reason h y x j hw hd [] (by simp) (fun t1 t2 _ hg => Or.inr (((hg.mono []).1 hw).1 (by rw [hrep]; simp)))
              exact ⟨by rw [List.append_nil]; exact this.1, this.2⟩
            · obtain ⟨_, hh⟩ := single hh; cases hh
    · exact ⟨fun a c p k hh => (none' hh).elim, fun a c p k hh => (none' hh).elim⟩

theorem trace_reason (h : List Event) :
    (∀ a c p k, trace h = a ++ .completed p k :: c → pending a p = some k ∧ Reason a p k) ∧
    (∀ a c p k, trace h = a ++ .started p k :: c → pending a p = none) := by
  rw [← List.reverse_reverse h]
  induction h.reverse with
  | nil =>
    constructor
    · intro a c p k hh; cases a <;> cases hh
    · intro a c p k hh; cases a <;> cases hh
  | cons e h ih =>
    rw [List.reverse_cons]
    have ho := on_reason (inv_run h.reverse) e
    have ht : trace (h.reverse ++ [e]) = trace h.reverse ++ (on (run h.reverse).1 e).2 := by rw [trace, run_append]; rfl
    have cut : ∀ {t u a c : List Out} {o : Out}, t ++ u = a ++ o :: c → (∃ c', t = a ++ o :: c') ∨ ∃ a', a = t ++ a' ∧ u = a' ++ o :: c := by
      intro t u a c o hh
      rcases List.append_eq_append_iff.mp hh with ⟨d, hd1, hd2⟩ | ⟨d, hd1, hd2⟩
      · exact Or.inr ⟨d, hd1, hd2⟩
      · cases d with
        | nil => exact Or.inr ⟨[], by simpa using hd1.symm, by simpa using hd2.symm⟩
        | cons x d =>
          simp at hd2
          obtain ⟨rfl, rfl⟩ := hd2
          exact Or.inl ⟨d, hd1⟩
    refine ⟨fun a c p k hh => ?_, fun a c p k hh => ?_⟩
    · rw [ht] at hh
      rcases cut hh with ⟨c', hc⟩ | ⟨a', rfl, hu⟩
      · exact ih.1 a c' p k hc
      · exact ho.1 a' c p k hu
    · rw [ht] at hh
      rcases cut hh with ⟨c', hc⟩ | ⟨a', rfl, hu⟩
      · exact ih.2 a c' p k hc
      · exact ho.2 a' c p k hu

end SilKit.Barrier
