import Verif.Spec.Lin
import Verif.Lemmas.Handling
/-!
# Lemmas about one LIN controller
-/
namespace SilKit.Lin
open SilKit.Lin.Spec SilKit.Handling.Spec

/-! ## The table of nodes -/

def Sorted (l : List (Nat × Node)) : Prop := l.Pairwise (fun x y => x.1 < y.1)

theorem Sorted.updNode {l : List (Nat × Node)} (h : Sorted l) (a : Nat) (f : Node → Node) : Sorted (updNode a f l) ∧ ∀ x ∈ Lin.updNode a f l, x.1 = a ∨ ∃ y ∈ l, y.1 = x.1 := by
  induction l with
  | nil => simp [Lin.updNode, Sorted]
  | cons x t ih =>
    obtain ⟨b, n⟩ := x
    have ht : Sorted t := (List.pairwise_cons.1 h).2
    have hb := (List.pairwise_cons.1 h).1
    obtain ⟨i1, i2⟩ := ih ht
    unfold Lin.updNode
    split
    · rename_i hlt
      refine ⟨List.pairwise_cons.2 ⟨fun y hy => ?_, i1⟩, fun y hy => ?_⟩
      · rcases i2 y hy with e | ⟨z, hz, e⟩
        · exact e ▸ hlt
        · exact e ▸ hb z hz
      · rcases List.mem_cons.1 hy with rfl | hy
        · exact .inr ⟨(b, n), by simp⟩
        · rcases i2 y hy with e | ⟨z, hz, e⟩
          · exact .inl e
          · exact .inr ⟨z, by simp [hz], e⟩
    · split
      · rename_i e
        refine ⟨List.pairwise_cons.2 ⟨fun y hy => hb y hy, ht⟩, fun y hy => ?_⟩
        rcases List.mem_cons.1 hy with rfl | hy
        · exact .inl e
        · exact .inr ⟨y, by simp [hy], rfl⟩
      · rename_i h1 h2
        refine ⟨List.pairwise_cons.2 ⟨fun y hy => ?_, h⟩, fun y hy => ?_⟩
        · rcases List.mem_cons.1 hy with rfl | hy
          · simp only; omega
          · have := hb y hy; simp only at this ⊢; omega
        · rcases List.mem_cons.1 hy with rfl | hy
          · exact .inl rfl
          · exact .inr ⟨y, hy, rfl⟩

theorem getNode_updNode_ne (a b : Nat) (f : Node → Node) (l : List (Nat × Node)) (h : b ≠ a) : getNode b (updNode a f l) = getNode b l := by
  induction l with
  | nil => simp [updNode, getNode, Ne.symm h]
  | cons x t ih =>
    obtain ⟨c, n⟩ := x
    unfold updNode
    split
    · simp only [getNode, ih]
    · split
      · rename_i e
        simp only [getNode, e, if_neg (Ne.symm h)]
      · simp [getNode, Ne.symm h]

theorem getNode_of_lt (a : Nat) (l : List (Nat × Node)) (h : ∀ x ∈ l, a < x.1) : getNode a l = {} := by
  induction l with
  | nil => rfl
  | cons x t ih =>
    obtain ⟨c, n⟩ := x
    have := h (c, n) (by simp)
    simp only at this
    rw [getNode, if_neg (by omega), ih fun y hy => h y (by simp [hy])]

theorem getNode_updNode_self {l : List (Nat × Node)} (h : Sorted l) (a : Nat) (f : Node → Node) : getNode a (updNode a f l) = f (getNode a l) := by
  induction l with
  | nil => simp [updNode, getNode]
  | cons x t ih =>
    obtain ⟨b, n⟩ := x
    have ht : Sorted t := (List.pairwise_cons.1 h).2
    have hb := (List.pairwise_cons.1 h).1
    unfold updNode
    split
    · rename_i hlt
      simp only [getNode, if_neg (show ¬ b = a by omega), ih ht]
    · split
      · rename_i e
        simp [getNode, e]
      · rename_i h1 h2
        rw [getNode, if_pos rfl, getNode, if_neg h2, getNode_of_lt a t]
        intro y hy
        have := hb y hy
        simp only at this
        omega

theorem updNode_updNode (a : Nat) (f g : Node → Node) (l : List (Nat × Node)) : updNode a f (updNode a g l) = updNode a (fun n => f (g n)) l := by
  induction l with
  | nil => simp [updNode]
  | cons x t ih =>
    obtain ⟨b, n⟩ := x
    by_cases h1 : b < a
    · simp only [updNode, if_pos h1, ih]
    · by_cases h2 : b = a
      · simp [updNode, h2]
      · simp [updNode, h1, h2]

theorem getNode_mem {l : List (Nat × Node)} (h : Sorted l) {a : Nat} {n : Node} (hm : (a, n) ∈ l) : getNode a l = n := by
  induction l with
  | nil => simp at hm
  | cons x t ih =>
    obtain ⟨b, m⟩ := x
    rcases List.mem_cons.1 hm with e | hm
    · injection e with e1 e2
      simp [getNode, e1, e2]
    · have := (List.pairwise_cons.1 h).1 _ hm
      simp only at this
      rw [getNode, if_neg (by omega), ih (List.pairwise_cons.1 h).2 hm]

theorem mem_of_getNode {l : List (Nat × Node)} {a : Nat} (h : (getNode a l).active = true) : (a, getNode a l) ∈ l := by
  induction l with
  | nil => simp [getNode, Node.active] at h
  | cons x t ih =>
    obtain ⟨b, m⟩ := x
    rw [getNode] at h ⊢
    split at h
    · rename_i e
      simp [e]
    · rename_i e
      rw [if_neg e]
      exact List.mem_cons_of_mem _ (ih h)

theorem mem_updNode {a : Nat} {f : Node → Node} {l : List (Nat × Node)} {x : Nat × Node} (h : x ∈ updNode a f l) :
    x ∈ l ∨ ∃ n, x = (a, f n) ∧ (n = {} ∨ (a, n) ∈ l) := by
  induction l with
  | nil => simp only [updNode, List.mem_singleton] at h; exact .inr ⟨{}, h, .inl rfl⟩
  | cons y t ih =>
    obtain ⟨b, n⟩ := y
    unfold updNode at h
    split at h
    · rcases List.mem_cons.1 h with rfl | h
      · exact .inl (by simp)
      · rcases ih h with h | ⟨n', e, h⟩
        · exact .inl (by simp [h])
        · exact .inr ⟨n', e, h.imp id fun h => by simp [h]⟩
    · split at h
      · rename_i e
        rcases List.mem_cons.1 h with rfl | h
        · exact .inr ⟨n, by rw [e], .inr (by simp [e])⟩
        · exact .inl (by simp [h])
      · rcases List.mem_cons.1 h with rfl | h
        · exact .inr ⟨{}, rfl, .inl rfl⟩
        · exact .inl h

/-! ## Responses -/

theorem updateResponses_mode (n : Node) (rs : List Response) :
    (n.updateResponses rs).mode = n.mode ∧ (n.updateResponses rs).status = n.status ∧ (n.updateResponses rs).isDynamic = n.isDynamic := by
  unfold Node.updateResponses
  induction rs generalizing n with
  | nil => simp
  | cons r t ih =>
    simp only [List.foldl_cons]
    obtain ⟨h1, h2, h3⟩ := ih (n.updateResponse r)
    rw [h1, h2, h3]
    unfold Node.updateResponse
    split <;> simp

theorem updateResponse_resp (n : Node) (c : Conf) (r : Response) (h : n.resp = c.resp) : (n.updateResponse r).resp = (c.set r).resp := by
  unfold Node.updateResponse Conf.set
  split
  · rename_i h'
    rw [if_neg (by omega), h]
  · rename_i h'
    rw [if_pos (by omega)]
    simp only [h]

theorem updateResponses_resp (n : Node) (c : Conf) (rs : List Response) (h : n.resp = c.resp) : (n.updateResponses rs).resp = (rs.foldl Conf.set c).resp := by
  unfold Node.updateResponses
  induction rs generalizing n c with
  | nil => exact h
  | cons r t ih => exact ih _ _ (updateResponse_resp n c r h)

/-- Everything but the responses. -/
def ConfSame (a b : Conf) : Prop :=
  a.mode = b.mode ∧ a.isDynamic = b.isDynamic ∧ a.asleep = b.asleep ∧ a.slaves = b.slaves ∧ a.announced = b.announced ∧ a.dynamics = b.dynamics

theorem same_set (c : Conf) (r : Response) : ConfSame (c.set r) c := by
  unfold Conf.set
  split <;> simp [ConfSame]

theorem same_sets (rs : List Response) (c : Conf) : ConfSame (rs.foldl Conf.set c) c := by
  induction rs generalizing c with
  | nil => simp [ConfSame]
  | cons r t ih =>
    have h1 := ih (c.set r)
    have h2 := same_set c r
    unfold ConfSame at *
    simp only [List.foldl_cons]
    rw [h1.1, h1.2.1, h1.2.2.1, h1.2.2.2.1, h1.2.2.2.2.1, h1.2.2.2.2.2]
    exact h2

/-- Responses are stored at their identifiers. -/
def Node.Ok (n : Node) : Prop := ∀ id, (n.resp id).mode ≠ .unused → (n.resp id).frame.id = id

theorem Node.Ok.default : Node.Ok {} := by intro id h; simp at h

theorem Node.Ok.updateResponse {n : Node} (h : n.Ok) (r : Response) : (n.updateResponse r).Ok := by
  unfold Node.updateResponse
  split
  · exact h
  · intro id hm
    simp only at hm ⊢
    split
    · rename_i e; exact e.symm
    · rename_i e; rw [if_neg e] at hm; exact h id hm

theorem Node.Ok.updateResponses {n : Node} (h : n.Ok) (rs : List Response) : (n.updateResponses rs).Ok := by
  unfold Node.updateResponses
  induction rs generalizing n with
  | nil => exact h
  | cons r t ih => exact ih (h.updateResponse r)

theorem Node.Ok.updateTxBuffer {n : Node} (h : n.Ok) (i : Nat) (d : List Nat) : (n.updateTxBuffer i d).Ok := by
  unfold Node.updateTxBuffer
  split
  · exact h
  · intro id hm
    simp only at hm ⊢
    split
    · rename_i e; rw [if_pos e] at hm; exact h id hm
    · rename_i e; rw [if_neg e] at hm; exact h id hm

/-! ## What has been configured -/

/-- The controller is configured as `f`. -/
structure I (c : Ctl) (f : Conf) : Prop where
  mode : c.mode = f.mode
  dyn : c.isDynamic = f.isDynamic
  st : c.status = .unknown ↔ f.mode = .inactive
  sorted : Sorted c.nodes
  ok : ∀ x ∈ c.nodes, x.2.Ok
  ownMode : c.own.mode = f.mode
  ownDyn : c.own.isDynamic = f.isDynamic
  ownResp : c.own.resp = f.resp
  ids : ∀ id, c.slaveIds.contains id = f.announced id
  slaves : ∀ a, a ≠ c.self → ((getNode a c.nodes).mode = .slave ↔ f.slaves a = true)
  dyns : ∀ a, a ≠ c.self → ((getNode a c.nodes).isDynamic = true ↔ a ∈ f.dynamics)
  others : c.self ∉ f.dynamics
  und : f.mode = .inactive → f.isDynamic = false

theorem I.init (i : Nat) (net : String) : I { self := i, net := net } {} where
  mode := rfl
  dyn := rfl
  st := by simp
  sorted := List.Pairwise.nil
  ok := by simp
  ownMode := rfl
  ownDyn := rfl
  ownResp := rfl
  ids := by simp
  slaves := by simp [getNode]
  dyns := by simp [getNode]
  others := by simp
  und := fun _ => rfl

/-- What the configuration depends on stays. -/
def Kept (c c' : Ctl) : Prop :=
  c'.self = c.self ∧ c'.mode = c.mode ∧ c'.isDynamic = c.isDynamic ∧ c'.nodes = c.nodes ∧ c'.slaveIds = c.slaveIds ∧ (c'.status = .unknown ↔ c.status = .unknown)

theorem Kept.refl (c : Ctl) : Kept c c := ⟨rfl, rfl, rfl, rfl, rfl, Iff.rfl⟩

theorem Kept.trans {a b c : Ctl} (h : Kept a b) (h' : Kept b c) : Kept a c := by
  obtain ⟨a1, a2, a3, a4, a5, a6⟩ := h
  obtain ⟨b1, b2, b3, b4, b5, b6⟩ := h'
  exact ⟨b1.trans a1, b2.trans a2, b3.trans a3, b4.trans a4, b5.trans a5, b6.trans a6⟩

theorem I.kept {c c' : Ctl} {f : Conf} (h : I c f) (k : Kept c c') : I c' f := by
  obtain ⟨k1, k2, k3, k4, k5, k6⟩ := k
  have e : c'.own = c.own := by simp only [Ctl.own, k1, k4]
  exact ⟨k2.trans h.mode, k3.trans h.dyn, k6.trans h.st, k4 ▸ h.sorted, k4 ▸ h.ok, e ▸ h.ownMode, e ▸ h.ownDyn, e ▸ h.ownResp, k5 ▸ h.ids,
    k1 ▸ k4 ▸ h.slaves, k1 ▸ k4 ▸ h.dyns, k1 ▸ h.others, h.und⟩

theorem I.same {c : Ctl} {f g : Conf} (h : I c f) (hs : ConfSame g f) (hr : g.resp = f.resp) : I c g := by
  obtain ⟨s1, s2, s3, s4, s5, s6⟩ := hs
  exact ⟨s1 ▸ h.mode, s2 ▸ h.dyn, s1 ▸ h.st, h.sorted, h.ok, s1 ▸ h.ownMode, s2 ▸ h.ownDyn, hr ▸ h.ownResp, s5 ▸ h.ids, s4 ▸ h.slaves, s6 ▸ h.dyns, s6 ▸ h.others, by rw [s1, s2]; exact h.und⟩

/-- The own node changes. -/
theorem I.setOwn {c c' : Ctl} {f g : Conf} (h : I c f) (u : Node → Node) (hok : ∀ n, n.Ok → (u n).Ok) (e1 : c'.self = c.self) (e2 : c'.nodes = updNode c.self u c.nodes)
    (e3 : c'.slaveIds = c.slaveIds) (hm : (u c.own).mode = g.mode) (hd : (u c.own).isDynamic = g.isDynamic)
    (hr : (u c.own).resp = g.resp) (h1 : c'.mode = g.mode) (h2 : c'.isDynamic = g.isDynamic) (h3 : c'.status = .unknown ↔ g.mode = .inactive)
    (h4 : g.announced = f.announced) (h5 : g.slaves = f.slaves) (h6 : g.dynamics = f.dynamics) (h7 : g.mode = .inactive → g.isDynamic = false) : I c' g := by
  have e : c'.own = u c.own := by
    rw [Ctl.own, e1, e2]
    exact getNode_updNode_self h.sorted _ _
  refine ⟨h1, h2, h3, e2 ▸ (h.sorted.updNode _ _).1, fun x hx => ?_, e ▸ hm, e ▸ hd, e ▸ hr, h4 ▸ e3 ▸ h.ids, fun a ha => ?_, fun a ha => ?_, h6 ▸ e1 ▸ h.others, h7⟩
  · rw [e2] at hx
    rcases mem_updNode hx with hx | ⟨n, rfl, hn⟩
    · exact h.ok x hx
    · refine hok n ?_
      rcases hn with rfl | hn
      · exact Node.Ok.default
      · exact h.ok _ hn
  · rw [e1] at ha
    rw [e2, getNode_updNode_ne _ _ _ _ ha, h5]
    exact h.slaves a ha
  · rw [e1] at ha
    rw [e2, getNode_updNode_ne _ _ _ _ ha, h6]
    exact h.dyns a ha

theorem distribute_fst (c : Ctl) (m : Msg) : (c.distribute m).1 = c := by
  unfold Ctl.distribute
  split <;> rfl

theorem updateFrameResponse_fst (c : Ctl) (r : Response) : (c.updateFrameResponse r).1 = c.setOwn (·.updateResponses [r]) := distribute_fst _ _

theorem I.updateFrameResponse {c : Ctl} {f : Conf} (h : I c f) (r : Response) : I (c.updateFrameResponse r).1 (f.set r) := by
  rw [updateFrameResponse_fst]
  obtain ⟨s1, s2, _, s4, s5, s6⟩ := same_set f r
  obtain ⟨m1, m2, m3⟩ := updateResponses_mode c.own [r]
  exact h.setOwn (·.updateResponses [r]) (fun n hn => hn.updateResponses [r]) rfl rfl rfl (by rw [m1, s1, h.ownMode]) (by rw [m3, s2, h.ownDyn])
    (updateResponses_resp c.own f [r] h.ownResp) (s1 ▸ h.mode) (s2 ▸ h.dyn) (s1 ▸ h.st) s5 s4 s6 (by rw [s1, s2]; exact h.und)

def Dies (c c' : Ctl) : Prop := c' = c ∨ c' = { c with dead := true }

theorem Dies.kept {c c' : Ctl} (h : Dies c c') : Kept c c' := by
  rcases h with rfl | rfl
  · exact Kept.refl _
  · exact Kept.refl _

theorem requestHeader_dies (c : Ctl) (id : Nat) : Dies c (c.requestHeader id).1 := by
  unfold Ctl.requestHeader
  split
  · exact .inl rfl
  · split
    · exact .inr rfl
    · split
      · exact .inl rfl
      · unfold Ctl.sendError R.andThen
        split
        · exact .inr rfl
        · exact .inl rfl

theorem requestFrame_dies (c : Ctl) (f : Frame) (ty : RespType) : Dies c (c.requestFrame f ty).1 := by
  unfold Ctl.requestFrame
  split
  · exact .inl rfl
  · split
    · exact .inl rfl
    · exact requestHeader_dies c f.id

theorem processHeader_dies (c : Ctl) (id : Nat) : Dies c (c.processHeader id).1 := by
  unfold Ctl.processHeader
  split
  · exact .inl rfl
  · split
    · exact .inr rfl
    · split
      · exact .inl rfl
      · split
        · exact .inl rfl
        · exact .inl rfl

theorem setStatus_kept (c : Ctl) (s : Status) (h : c.status ≠ .unknown) (hs : s ≠ .unknown) : Kept c (c.setStatus s).1 :=
  ⟨rfl, rfl, rfl, rfl, rfl, by simp [Ctl.setStatus, Ctl.send, h, hs]⟩

theorem learn_ids (ids : List Nat) (rs : List Response) (id : Nat) :
    (rs.foldl slaveIdsStep ids).contains id = (ids.contains id || rs.any (fun r => r.mode == .tx && r.frame.id == id)) := by
  induction rs generalizing ids with
  | nil => simp
  | cons r t ih =>
    simp only [List.foldl_cons, ih, List.any_cons]
    have : (slaveIdsStep ids r).contains id = (ids.contains id || (r.mode == .tx && r.frame.id == id)) := by
      unfold slaveIdsStep
      split
      · rename_i e
        split
        · rename_i hc
          by_cases h : r.frame.id = id
          · rw [← h, hc]; simp
          · simp [h]
        · by_cases h : r.frame.id = id
          · simp [h, e]
          · have h' : ¬ id = r.frame.id := fun e => h e.symm
            simp [h, h']
      · rename_i e
        simp [e]
    rw [this, Bool.or_assoc]

theorem I.hasDynamic {c : Ctl} {f : Conf} (h : I c f) (hd : f.isDynamic = false) : c.hasDynamicNode = true ↔ f.dynamics ≠ [] := by
  unfold Ctl.hasDynamicNode
  rw [List.any_eq_true]
  constructor
  · rintro ⟨⟨a, n⟩, hm, hn⟩ e
    have e1 := getNode_mem h.sorted hm
    by_cases ha : a = c.self
    · have := h.ownDyn
      rw [Ctl.own, ← ha, e1, hd] at this
      simp [this] at hn
    · have := (h.dyns a ha).1 (by rw [e1]; exact hn)
      simp [e] at this
  · intro hn
    obtain ⟨a, ha⟩ := List.exists_mem_of_ne_nil _ hn
    have hs : a ≠ c.self := fun e => h.others (e ▸ ha)
    have := (h.dyns a hs).2 ha
    suffices ∀ l : List (Nat × Node), (getNode a l).isDynamic = true → ∃ x ∈ l, x.2.isDynamic = true from this _ ‹_›
    intro l
    induction l with
    | nil => simp [getNode]
    | cons x t ih =>
      obtain ⟨b, n⟩ := x
      intro hg
      rw [getNode] at hg
      split at hg
      · exact ⟨(b, n), by simp, hg⟩
      · obtain ⟨y, hy, e⟩ := ih hg
        exact ⟨y, by simp [hy], e⟩

theorem I.initWith {c c' : Ctl} {f : Conf} (h : I c f) (mode : Mode) (dyn : Bool) (rs : List Response) (w : Node → Node) (hu : c.status = .unknown) (hm : mode ≠ .inactive)
    (e1 : c'.self = c.self) (e2 : c'.nodes = updNode c.self (fun n => (w n).updateResponses rs) c.nodes) (hw1 : (w c.own).mode = mode) (hw2 : (w c.own).isDynamic = dyn)
    (hw3 : ∀ n, (w n).resp = n.resp)
    (e3 : c'.slaveIds = c.slaveIds) (e4 : c'.mode = mode) (e5 : c'.isDynamic = dyn) (e6 : c'.status = .operational) : I c' (f.initWith mode dyn rs) := by
  rw [Conf.initWith, if_pos ⟨h.st.1 hu, hm⟩]
  obtain ⟨s1, s2, _, s4, s5, s6⟩ := same_sets rs { f with mode := mode, isDynamic := dyn }
  obtain ⟨m1, m2, m3⟩ := updateResponses_mode (w c.own) rs
  refine h.setOwn (fun n => (w n).updateResponses rs) (fun n hn => Node.Ok.updateResponses (fun id => ?_) rs) e1 e2 e3 (by rw [m1, s1, hw1]) (by rw [m3, s2, hw2])
    (updateResponses_resp _ { f with mode := mode, isDynamic := dyn } rs ((hw3 _).trans h.ownResp)) (by rw [e4, s1]) (by rw [e5, s2]) (by rw [e6, s1]; simp [hm]) s5 s4 s6
    (by rw [s1]; simp [hm])
  rw [hw3]
  exact hn id

theorem I.stMode {c : Ctl} {f : Conf} (h : I c f) : c.status = .unknown ↔ c.mode = .inactive := by rw [h.st, h.mode]

theorem I.sendFrame {c : Ctl} {f : Conf} (h : I c f) (fr : Frame) (ty : RespType) :
    (c.sendFrame fr ty).1.dead = true ∨ I (c.sendFrame fr ty).1 (f.call (.sendFrame fr ty)) := by
  unfold Ctl.sendFrame
  split
  · rename_i hu
    have hi := h.st.1 hu
    right
    cases ty <;> simp only [Conf.call, Conf.static, hi, Ctl.throw]
    · simpa using h
    · simpa using h
    · exact h
  · rename_i hu
    split
    · rename_i hm
      rw [h.mode] at hm
      right
      cases ty <;> simp only [Conf.call, hm, Ctl.throw]
      · simpa using h
      · simpa using h
      · exact h
    · rename_i hm
      split
      · rename_i hd
        rw [h.dyn] at hd
        right
        cases ty <;> simp only [Conf.call, hd, Ctl.throw, Conf.static]
        · simpa using h
        · simpa using h
        · exact h
      · rename_i hd
        rw [h.dyn, Bool.not_eq_true] at hd
        rw [h.mode, Classical.not_not] at hm
        have hs : f.static := ⟨by simp [hm], hd⟩
        have hdyn := h.hasDynamic hd
        have hids : c.hasRespondingSlave fr.id = f.announced fr.id := h.ids fr.id
        cases ty with
        | masterResponse =>
          right
          simp only [Conf.call, if_pos (And.intro hs hm), Ctl.sendFrameInternal, R.andThen]
          exact (h.updateFrameResponse _).kept (requestFrame_dies _ _ _).kept
        | slaveResponse =>
          simp only [Conf.call, Ctl.sendFrameInternal]
          split
          · rename_i hn
            simp only [Bool.and_eq_true, Bool.not_eq_true', hids] at hn
            right
            rw [if_neg]
            · exact h
            · rintro ⟨_, _, h1 | h1, _⟩
              · simp [hn.1] at h1
              · rw [hdyn.2 h1] at hn
                simp at hn
          · rename_i hn
            simp only [Bool.and_eq_true, Bool.not_eq_true', hids, not_and, Bool.not_eq_false] at hn
            unfold Ctl.sendFrameSlave
            split
            · left; rfl
            · right
              rw [h.ownResp]
              split
              · rename_i e
                rw [if_pos]
                · simp only [R.andThen]
                  exact (h.updateFrameResponse _).kept (requestFrame_dies _ _ _).kept
                · refine ⟨hs, hm, ?_, e⟩
                  cases ha : f.announced fr.id
                  · exact .inr (hdyn.1 (hn ha))
                  · exact .inl rfl
              · rename_i e
                rw [if_neg (by simp [e])]
                exact h
              · rename_i e
                rw [if_neg (by simp [e])]
                exact h.kept (requestFrame_dies _ _ _).kept
        | slaveToSlave =>
          right
          simp only [Conf.call, Ctl.sendFrameInternal]
          split
          · exact h
          · simp only [R.andThen]
            exact h.kept (requestFrame_dies _ _ _).kept

theorem onTransmission_kept (c : Ctl) (f : Frame) (s : FrameStatus) : Kept c (c.onTransmission f s).1 := by
  have hsl : ∀ c : Ctl, Kept c (c.sleepFrame f).1 := by
    intro c
    unfold Ctl.sleepFrame
    split
    · split
      · exact Kept.refl _
      · split
        · rename_i e
          exact ⟨rfl, rfl, rfl, rfl, rfl, by simp [e]⟩
        · exact Kept.refl _
      · exact Kept.refl _
    · exact Kept.refl _
  unfold Ctl.onTransmission
  split
  · exact Kept.refl _
  · split
    · exact Kept.refl _
    · split
      · exact Kept.refl _
      · split
        · exact Kept.refl _
        · simp only [R.andThen]
          split
          · exact hsl _
          · exact hsl _

theorem onHeader_dies (c : Ctl) (id : Nat) : Dies c (c.onHeader id).1 := by
  unfold Ctl.onHeader
  split
  · exact .inl rfl
  · exact processHeader_dies c id

theorem slaveConfigured_kept (c : Ctl) : Kept c c.slaveConfigured.1 := by
  unfold Ctl.slaveConfigured
  split <;> exact Kept.refl _

theorem take_guarded_kept (c : Ctl) (src : Nat) (m : Msg) (h : m.guarded = true) : Kept c (c.take src m).1 := by
  cases m with
  | header id => exact (onHeader_dies c id).kept
  | transmission f s => exact onTransmission_kept c f s
  | wakeup d => exact Kept.refl _
  | _ => simp [Msg.guarded] at h

theorem onSim_kept (c : Ctl) (x : SimInput) : Kept c (c.onSim x).1 := by
  cases x with
  | linkCreated q net => simp only [Ctl.onSim]; split <;> exact Kept.refl _
  | linkRemoved q net => simp only [Ctl.onSim]; split <;> exact Kept.refl _
  | msg q m =>
    simp only [Ctl.onSim]
    split
    · rename_i h
      exact take_guarded_kept c _ m h.1
    · exact Kept.refl _

theorem addHandler_kept (c : Ctl) (k : Kind) : Kept c (c.addHandler k).1 := by
  unfold Ctl.addHandler R.andThen
  simp only
  split <;> exact Kept.refl _

theorem I.asleep {c : Ctl} {f : Conf} (h : I c f) (b : Bool) : I c { f with asleep := b } :=
  ⟨h.mode, h.dyn, h.st, h.sorted, h.ok, h.ownMode, h.ownDyn, h.ownResp, h.ids, h.slaves, h.dyns, h.others, h.und⟩

theorem I.setStatus {c : Ctl} {f : Conf} (h : I c f) (s : Status) (hu : ¬ c.status = .unknown) (hs : s ≠ .unknown) : I (c.setStatus s).1 f :=
  h.kept (setStatus_kept c s hu hs)

theorem I.api {c : Ctl} {f : Conf} (h : I c f) (a : Call) : (c.apiAlive a).1.dead = true ∨ I (c.apiAlive a).1 (f.call a) := by
  cases a with
  | init mode rs =>
    right
    simp only [Ctl.apiAlive, Ctl.init, Conf.call]
    split
    · rename_i e
      rw [Conf.initWith, if_neg (by simp [e])]
      exact h
    · split
      · rename_i e hu
        rw [Conf.initWith, if_neg (by rw [← h.st]; simp [hu])]
        exact h
      · rename_i e hu
        rw [Classical.not_not] at hu
        rw [distribute_fst]
        have hd : c.isDynamic = false := by rw [h.dyn]; exact h.und (h.st.1 hu)
        exact h.initWith mode false rs (fun n => { n with mode := mode, status := .operational }) hu e rfl rfl rfl (h.ownDyn.trans (h.und (h.st.1 hu)))
          (fun _ => rfl) rfl rfl hd rfl
  | initDynamic mode =>
    right
    simp only [Ctl.apiAlive, Ctl.initDynamic, Conf.call]
    split
    · rename_i e
      rw [Conf.initWith, if_neg (by simp [e])]
      exact h
    · split
      · rename_i e hu
        rw [Conf.initWith, if_neg (by rw [← h.st]; simp [hu])]
        exact h
      · rename_i e hu
        rw [Classical.not_not] at hu
        rw [distribute_fst]
        exact h.initWith mode true [] (fun n => { n with mode := mode, status := .operational, isDynamic := true }) hu e rfl rfl rfl rfl (fun _ => rfl) rfl rfl rfl rfl
  | sendDynamicResponse fr =>
    right
    simp only [Ctl.apiAlive, Ctl.sendDynamicResponse, Conf.call, R.andThen]
    rw [if_neg (by simp)]
    exact (h.updateFrameResponse _).kept (processHeader_dies _ _).kept
  | sendFrame fr ty => exact h.sendFrame fr ty
  | sendFrameHeader id =>
    right
    simp only [Ctl.apiAlive, Ctl.sendFrameHeader, Conf.call]
    split
    · exact h
    · split
      · exact h
      · exact h.kept (requestHeader_dies _ _).kept
  | updateTxBuffer fr =>
    simp only [Ctl.apiAlive, Ctl.updateTxBuffer, Conf.call]
    split
    · rename_i hu
      right
      rw [if_neg (by simp [Conf.static, h.st.1 hu])]
      exact h
    · rename_i hu
      split
      · rename_i hd
        right
        rw [h.dyn] at hd
        rw [if_neg (by simp [Conf.static, hd])]
        exact h
      · rename_i hd
        split
        · left; rfl
        · rename_i hid
          right
          rw [h.ownResp]
          split
          · rename_i e
            rw [if_neg (by simp [e])]
            exact h
          · rename_i e
            rw [Classical.not_not] at e
            rw [h.dyn, Bool.not_eq_true] at hd
            rw [if_pos ⟨⟨fun e => hu (h.st.2 e), hd⟩, e⟩]
            have key : I (c.setOwn (·.updateTxBuffer fr.id fr.data)) { f with resp := fun i => if i = fr.id then withData (f.resp i) fr.data else f.resp i } := by
              refine h.setOwn (·.updateTxBuffer fr.id fr.data) (fun n hn => hn.updateTxBuffer _ _) rfl rfl rfl ?_ ?_ ?_ h.mode h.dyn h.st rfl rfl rfl h.und
              · simp only [Node.updateTxBuffer, if_neg hid]; exact h.ownMode
              · simp only [Node.updateTxBuffer, if_neg hid]; exact h.ownDyn
              · simp only [Node.updateTxBuffer, if_neg hid, h.ownResp]; rfl
            simp only [R.andThen]
            split <;> exact key
  | setFrameResponse r =>
    right
    simp only [Ctl.apiAlive, Ctl.setFrameResponse, Conf.call]
    split
    · rename_i hu
      rw [if_neg (by simp [Conf.static, h.st.1 hu])]
      exact h
    · rename_i hu
      split
      · rename_i hd
        rw [h.dyn] at hd
        rw [if_neg (by simp [Conf.static, hd])]
        exact h
      · rename_i hd
        split
        · rename_i hid
          have : f.set r = f := by rw [Conf.set, if_neg (by omega)]
          rw [this]
          split <;> exact h
        · split
          · rename_i e
            rw [if_neg (by simp [e])]
            exact h
          · rename_i e
            rw [h.ownResp]
            split
            · rename_i e'
              rw [if_neg (by simp [e'])]
              exact h
            · rename_i e'
              rw [Classical.not_not] at e'
              rw [h.dyn, Bool.not_eq_true] at hd
              rw [if_pos ⟨⟨fun e => hu (h.st.2 e), hd⟩, e, e'⟩]
              exact h.updateFrameResponse r
  | goToSleep =>
    right
    simp only [Ctl.apiAlive, Ctl.goToSleep, Conf.call]
    split
    · rename_i hu
      rw [if_neg (by simp [h.st.1 hu])]
      exact h
    · rename_i hu
      split
      · rename_i hm
        rw [h.mode] at hm
        rw [if_neg hm]
        exact h
      · rename_i hm
        rw [Classical.not_not, h.mode] at hm
        rw [if_pos hm]
        split
        · show I c.goToSleepInternal.1 _
          rw [Ctl.goToSleepInternal, if_neg hu]
          exact (h.setStatus .sleep hu (by simp)).asleep true
        · simp only [R.andThen]
          exact (h.setStatus .sleepPending hu (by simp)).asleep true
  | goToSleepInternal =>
    right
    simp only [Ctl.apiAlive, Ctl.goToSleepInternal, Conf.call]
    split
    · rename_i hu
      rw [if_neg (by simp [h.st.1 hu])]
      exact h
    · rename_i hu
      rw [if_pos (fun e => hu (h.st.2 e))]
      exact (h.setStatus .sleep hu (by simp)).asleep true
  | wakeup =>
    right
    simp only [Ctl.apiAlive, Ctl.wakeup, Conf.call]
    split
    · rename_i hu
      rw [if_neg (by simp [h.st.1 hu])]
      exact h
    · rename_i hu
      rw [if_pos (fun e => hu (h.st.2 e))]
      split
      · show I c.wakeupInternal.1 _
        rw [Ctl.wakeupInternal, if_neg hu]
        exact (h.setStatus .operational hu (by simp)).asleep false
      · simp only [R.andThen, Ctl.wakeupInternal, if_neg hu]
        exact (h.setStatus .operational hu (by simp)).asleep false
  | wakeupInternal =>
    right
    simp only [Ctl.apiAlive, Ctl.wakeupInternal, Conf.call]
    split
    · rename_i hu
      rw [if_neg (by simp [h.st.1 hu])]
      exact h
    · rename_i hu
      rw [if_pos (fun e => hu (h.st.2 e))]
      exact (h.setStatus .operational hu (by simp)).asleep false
  | getSlaveConfiguration =>
    right
    simp only [Ctl.apiAlive, Ctl.getSlaveConfiguration, Conf.call]
    split <;> exact h
  | addHandler k => exact .inr (h.kept (addHandler_kept c k))
  | removeHandler k id => exact .inr (h.kept (Kept.refl _))
  | sim x => exact .inr (h.kept (onSim_kept c x))

/-! ## Received messages -/

/-- What a message tells about its sender. -/
def viewStep (n : Node) : Msg → Node
  | .config mode dyn rs => Node.updateResponses { n with mode := mode, status := .operational, isDynamic := dyn } rs
  | .responses rs => n.updateResponses rs
  | .status s => { n with status := s }
  | _ => n

theorem viewStep_ok {n : Node} (h : n.Ok) (m : Msg) : (viewStep n m).Ok := by
  cases m with
  | config mode dyn rs => exact Node.Ok.updateResponses (n := { n with mode := mode, status := .operational, isDynamic := dyn }) (fun id => h id) rs
  | responses rs => exact h.updateResponses rs
  | _ => exact h

/-- The nodes, after a message is taken. -/
theorem take_nodes {c : Ctl} (hs : Sorted c.nodes) (src : Nat) (m : Msg) :
    Sorted (c.take src m).1.nodes ∧ (∀ a, a ≠ src → getNode a (c.take src m).1.nodes = getNode a c.nodes) ∧
    getNode src (c.take src m).1.nodes = viewStep (getNode src c.nodes) m ∧
    ((∀ x ∈ c.nodes, x.2.Ok) → ∀ x ∈ (c.take src m).1.nodes, x.2.Ok) ∧ (c.take src m).1.self = c.self ∧
    ((c.take src m).1.nodes = c.nodes ∨ ∃ f, (c.take src m).1.nodes = updNode src f c.nodes) := by
  have quiet : ∀ c' : Ctl, Kept c c' → viewStep (getNode src c.nodes) m = getNode src c.nodes →
      Sorted c'.nodes ∧ (∀ a, a ≠ src → getNode a c'.nodes = getNode a c.nodes) ∧ getNode src c'.nodes = viewStep (getNode src c.nodes) m ∧
      ((∀ x ∈ c.nodes, x.2.Ok) → ∀ x ∈ c'.nodes, x.2.Ok) ∧ c'.self = c.self ∧ (c'.nodes = c.nodes ∨ ∃ f, c'.nodes = updNode src f c.nodes) := by
    rintro c' ⟨k1, _, _, k4, _⟩ hv
    rw [k4, hv]
    exact ⟨hs, fun _ _ => rfl, rfl, id, k1, .inl rfl⟩
  have upd : ∀ (c' : Ctl) (g : Node → Node), c'.nodes = updNode src g c.nodes → c'.self = c.self → (∀ n, n.Ok → (g n).Ok) → g (getNode src c.nodes) = viewStep (getNode src c.nodes) m →
      Sorted c'.nodes ∧ (∀ a, a ≠ src → getNode a c'.nodes = getNode a c.nodes) ∧ getNode src c'.nodes = viewStep (getNode src c.nodes) m ∧
      ((∀ x ∈ c.nodes, x.2.Ok) → ∀ x ∈ c'.nodes, x.2.Ok) ∧ c'.self = c.self ∧ (c'.nodes = c.nodes ∨ ∃ f, c'.nodes = updNode src f c.nodes) := by
    intro c' g e1 e2 hg hv
    refine ⟨e1 ▸ (hs.updNode _ _).1, fun a ha => by rw [e1, getNode_updNode_ne _ _ _ _ ha], by rw [e1, getNode_updNode_self hs, hv], fun hok x hx => ?_, e2, .inr ⟨g, e1⟩⟩
    rw [e1] at hx
    rcases mem_updNode hx with hx | ⟨n, rfl, hn⟩
    · exact hok x hx
    · refine hg n ?_
      rcases hn with rfl | hn
      · exact Node.Ok.default
      · exact hok _ hn
  cases m with
  | frameRequest f ty => exact quiet _ (Kept.refl _) rfl
  | header id => exact quiet _ (onHeader_dies c id).kept rfl
  | transmission f s => exact quiet _ (onTransmission_kept c f s) rfl
  | wakeup d => exact quiet _ (Kept.refl _) rfl
  | config mode dyn rs =>
    simp only [Ctl.take]
    obtain ⟨k1, _, _, k4, _⟩ :=
      slaveConfigured_kept (Ctl.learn { c with nodes := updNode src (fun n => { n with mode := mode, status := .operational, isDynamic := dyn }) c.nodes } src rs)
    exact upd _ (fun n => Node.updateResponses { n with mode := mode, status := .operational, isDynamic := dyn } rs) (k4.trans (updNode_updNode _ _ _ _)) (k1.trans rfl)
      (fun n hn => Node.Ok.updateResponses (n := { n with mode := mode, status := .operational, isDynamic := dyn }) (fun id => hn id) rs) rfl
  | responses rs =>
    simp only [Ctl.take]
    obtain ⟨k1, _, _, k4, _⟩ := slaveConfigured_kept (c.learn src rs)
    exact upd _ (·.updateResponses rs) (k4.trans rfl) (k1.trans rfl) (fun n hn => hn.updateResponses rs) rfl
  | status s => exact upd _ (fun n => { n with status := s }) rfl rfl (fun n hn id => hn id) rfl

theorem I.learn {c c' : Ctl} {f g : Conf} {src : Nat} {m : Msg} (h : I c f) (hsrc : src ≠ c.self) (e : c' = (c.take src m).1)
    (h1 : c'.mode = c.mode) (h2 : c'.isDynamic = c.isDynamic) (h3 : c'.status = c.status) (hg : g.mode = f.mode ∧ g.isDynamic = f.isDynamic ∧ g.resp = f.resp)
    (h4 : ∀ id, c'.slaveIds.contains id = g.announced id) (h5 : (viewStep (getNode src c.nodes) m).mode = .slave ↔ g.slaves src = true) (h6 : ∀ a, a ≠ src → g.slaves a = f.slaves a)
    (h7 : (viewStep (getNode src c.nodes) m).isDynamic = true ↔ src ∈ g.dynamics) (h8 : ∀ a, a ≠ src → (a ∈ g.dynamics ↔ a ∈ f.dynamics)) : I c' g := by
  obtain ⟨t1, t2, t3, t4, t5, _⟩ := take_nodes h.sorted src m
  rw [← e] at t1 t2 t3 t4 t5
  obtain ⟨g1, g2, g3⟩ := hg
  have eo : c'.own = c.own := by rw [Ctl.own, t5]; exact t2 _ (Ne.symm hsrc)
  refine ⟨by rw [h1, g1, h.mode], by rw [h2, g2, h.dyn], by rw [h3, g1]; exact h.st, t1, t4 h.ok, by rw [eo, g1, h.ownMode], by rw [eo, g2, h.ownDyn],
    by rw [eo, g3, h.ownResp], h4, fun a ha => ?_, fun a ha => ?_, ?_, by rw [g1, g2]; exact h.und⟩
  · rw [t5] at ha
    by_cases e : a = src
    · rw [e, t3]; exact h5
    · rw [t2 a e, h6 a e]; exact h.slaves a ha
  · rw [t5] at ha
    by_cases e : a = src
    · rw [e, t3]; exact h7
    · rw [t2 a e, h8 a e]; exact h.dyns a ha
  · rw [t5, h8 _ (Ne.symm hsrc)]
    exact h.others

theorem slaveConfigured_status (c : Ctl) : c.slaveConfigured.1.status = c.status := by
  unfold Ctl.slaveConfigured
  split <;> rfl

theorem announce_same (c : Conf) (src : Nat) (rs : List Response) :
    (c.announce src rs).mode = c.mode ∧ (c.announce src rs).isDynamic = c.isDynamic ∧ (c.announce src rs).resp = c.resp ∧ (c.announce src rs).slaves = c.slaves ∧
    (c.announce src rs).dynamics = c.dynamics ∧ (c.announce src rs).asleep = c.asleep := by
  unfold Conf.announce
  split <;> simp

theorem I.receive {c : Ctl} {f : Conf} (h : I c f) (hd : c.dead = false) (hself : ∀ s, m = .status s → src ≠ c.self) : I (c.receive src m).1 (f.recv c.self src m) := by
  rw [Ctl.receive, if_neg (by simp [hd])]
  split
  · rename_i hg
    have : f.recv c.self src m = f := by cases m <;> simp [Msg.guarded] at hg <;> rfl
    rw [this]
    exact h
  · split
    · rename_i hn
      have : f.recv c.self src m = f := by
        cases m <;> simp [Msg.notFromSelf] at hn <;> simp [Conf.recv, hn]
      rw [this]
      exact h
    · rename_i hn
      cases m with
      | frameRequest fr ty => exact h
      | header id => exact h.kept (onHeader_dies c id).kept
      | transmission fr s => exact h.kept (onTransmission_kept c fr s)
      | wakeup d => exact h
      | config mode dyn rs =>
        have hsrc : src ≠ c.self := fun e => hn ⟨rfl, e⟩
        simp only [Conf.recv, if_neg hsrc]
        obtain ⟨k1, k2, k3, k4, k5, _⟩ :=
          slaveConfigured_kept (Ctl.learn { c with nodes := updNode src (fun n => { n with mode := mode, status := .operational, isDynamic := dyn }) c.nodes } src rs)
        have k6 := slaveConfigured_status (Ctl.learn { c with nodes := updNode src (fun n => { n with mode := mode, status := .operational, isDynamic := dyn }) c.nodes } src rs)
        refine h.learn hsrc rfl (k2.trans rfl) (k3.trans rfl) (k6.trans rfl) ?_ ?_ ?_ ?_ ?_ ?_
        · obtain ⟨a1, a2, a3, _⟩ := announce_same _ src rs
          exact ⟨a1, a2, a3⟩
        · intro id
          rw [show (c.take src (.config mode dyn rs)).1.slaveIds = _ from k5]
          simp only [Ctl.learn, getNode_updNode_self h.sorted]
          unfold Conf.announce
          by_cases hm : mode = .slave
          · simp only [hm, if_true, beq_self_eq_true]
            rw [learn_ids, h.ids]
          · simp [hm]
            simpa using h.ids id
        · simp only [viewStep, (updateResponses_mode _ rs).1]
          rw [(announce_same _ src rs).2.2.2.1]
          simp
        · intro a ha
          rw [(announce_same _ src rs).2.2.2.1]
          simp [ha]
        · simp only [viewStep, (updateResponses_mode _ rs).2.2]
          rw [(announce_same _ src rs).2.2.2.2.1]
          cases dyn <;> simp
        · intro a ha
          rw [(announce_same _ src rs).2.2.2.2.1]
          cases dyn <;> simp [ha]
      | responses rs =>
        have hsrc : src ≠ c.self := fun e => hn ⟨rfl, e⟩
        simp only [Conf.recv, if_neg hsrc]
        obtain ⟨k1, k2, k3, k4, k5, _⟩ := slaveConfigured_kept (c.learn src rs)
        have k6 := slaveConfigured_status (c.learn src rs)
        refine h.learn hsrc rfl (k2.trans rfl) (k3.trans rfl) (k6.trans rfl) ?_ ?_ ?_ ?_ ?_ ?_
        · obtain ⟨a1, a2, a3, _⟩ := announce_same _ src rs
          exact ⟨a1, a2, a3⟩
        · intro id
          rw [show (c.take src (.responses rs)).1.slaveIds = _ from k5]
          simp only [Ctl.learn]
          unfold Conf.announce
          have hsl := h.slaves src hsrc
          by_cases hm : (getNode src c.nodes).mode = .slave
          · rw [if_pos hm, if_pos (hsl.1 hm), learn_ids, h.ids]
          · rw [if_neg hm, if_neg (fun e => hm (hsl.2 e)), h.ids]
        · simp only [viewStep, (updateResponses_mode _ rs).1]
          rw [h.slaves src hsrc, (announce_same _ src rs).2.2.2.1]
        · intro a ha
          rw [(announce_same _ src rs).2.2.2.1]
        · simp only [viewStep, (updateResponses_mode _ rs).2.2]
          rw [h.dyns src hsrc, (announce_same _ src rs).2.2.2.2.1]
        · intro a ha
          rw [(announce_same _ src rs).2.2.2.2.1]
      | status s =>
        have hsrc : src ≠ c.self := hself s rfl
        exact h.learn hsrc rfl rfl rfl rfl ⟨rfl, rfl, rfl⟩ h.ids (h.slaves src hsrc) (fun _ _ => rfl) (h.dyns src hsrc) (fun _ _ => Iff.rfl)

/-- The controller does not report its status to itself (SilKitLink.hpp:171-186). -/
def Input.Ok (i : Nat) : Input → Prop
  | .recv src m => ∀ s, m = .status s → src ≠ i
  | .call _ => True

/-! ## Outputs -/

/-- The identity, the handlers, and how handlers are invoked. -/
structure Fine (c : Ctl) (r : R) : Prop where
  self : r.1.self = c.self
  net : r.1.net = c.net
  hnd : r.1.handlers = c.handlers
  dead : r.1.dead = true ↔ c.dead = true ∨ Did.ub ∈ dids r.2
  inv : ∀ t, Handling.H events c.handlers t → Handling.H events c.handlers (t ++ r.2)

theorem Fine.state {c c' : Ctl} (h1 : c'.self = c.self) (h2 : c'.net = c.net) (h3 : c'.handlers = c.handlers) (h4 : c'.dead = c.dead) : Fine c (c', []) :=
  ⟨h1, h2, h3, by simp [h4, dids], fun t h => by simpa using h⟩

theorem Fine.refl (c : Ctl) : Fine c (c, []) := Fine.state rfl rfl rfl rfl

theorem Fine.andThen {c : Ctl} {r : R} {f : Ctl → R} (h : Fine c r) (h' : Fine r.1 (f r.1)) : Fine c (r.andThen f) := by
  refine ⟨h'.self.trans h.self, h'.net.trans h.net, h'.hnd.trans h.hnd, ?_, fun t ht => ?_⟩
  · show (f r.1).1.dead = true ↔ _
    rw [h'.dead, h.dead]
    simp only [R.andThen, Handling.dids_append, List.mem_append, or_assoc]
  · rw [R.andThen, ← List.append_assoc]
    have := h'.inv (t ++ r.2) (by rw [h.hnd]; exact h.inv t ht)
    rw [h.hnd] at this
    exact this

theorem Fine.of {c c' : Ctl} {r : R} (h : Fine c' r) (h1 : c'.self = c.self) (h2 : c'.net = c.net) (h3 : c'.handlers = c.handlers) (h4 : c'.dead = c.dead) : Fine c r :=
  ⟨h.self.trans h1, h.net.trans h2, h.hnd.trans h3, by rw [h.dead, h4], fun t ht => h3 ▸ h.inv t (h3 ▸ ht)⟩

theorem Fine.tell (c : Ctl) (n : Notice) : Fine c (c.tell n) :=
  ⟨rfl, rfl, rfl, by simp [Ctl.tell, Handling.dids_tell], fun _ ht => ht.tell n⟩

theorem Fine.did {c c' : Ctl} (d : Did) (h1 : c'.self = c.self) (h2 : c'.net = c.net) (h3 : c'.handlers = c.handlers) (h4 : c'.dead = true ↔ c.dead = true ∨ d = .ub) :
    Fine c (c', [.did d]) :=
  ⟨h1, h2, h3, by rw [h4]; simp only [dids, List.filterMap_cons, List.filterMap_nil, List.mem_singleton]; exact or_congr Iff.rfl eq_comm, fun _ ht => ht.did [d]⟩

theorem Fine.send (c : Ctl) (m : Msg) : Fine c (c.send m) := Fine.did _ rfl rfl rfl (by simp)
theorem Fine.throw (c : Ctl) : Fine c c.throw := Fine.did _ rfl rfl rfl (by simp)
theorem Fine.ub (c : Ctl) : Fine c c.ub := Fine.did _ rfl rfl rfl (by simp)
theorem Fine.toSim (c : Ctl) (q : Nat) (m : Msg) : Fine c (c, [.did (.toSim q m)]) := Fine.did _ rfl rfl rfl (by simp)

theorem Fine.distribute (c : Ctl) (m : Msg) : Fine c (c.distribute m) := by
  unfold Ctl.distribute
  split
  · exact Fine.send c m
  · exact Fine.refl c

theorem Fine.setStatus (c : Ctl) (s : Status) : Fine c (c.setStatus s) := (Fine.send _ _).of rfl rfl rfl rfl
theorem Fine.updateFrameResponse (c : Ctl) (r : Response) : Fine c (c.updateFrameResponse r) := (Fine.distribute _ _).of rfl rfl rfl rfl

theorem Fine.requestHeader (c : Ctl) (id : Nat) : Fine c (c.requestHeader id) := by
  unfold Ctl.requestHeader
  split
  · exact Fine.toSim _ _ _
  · split
    · exact Fine.ub c
    · split
      · exact Fine.send _ _
      · unfold Ctl.sendError
        refine (Fine.send _ _).andThen ?_
        split
        · exact Fine.ub _
        · exact Fine.tell _ _

theorem Fine.requestFrame (c : Ctl) (f : Frame) (ty : RespType) : Fine c (c.requestFrame f ty) := by
  unfold Ctl.requestFrame
  split
  · exact Fine.toSim _ _ _
  · split
    · exact Fine.refl c
    · exact Fine.requestHeader c _

theorem Fine.processHeader (c : Ctl) (id : Nat) : Fine c (c.processHeader id) := by
  unfold Ctl.processHeader
  split
  · exact Fine.refl c
  · split
    · exact Fine.ub c
    · split
      · exact Fine.refl c
      · split
        · exact Fine.throw c
        · exact (Fine.send _ _).andThen (Fine.tell _ _)

theorem Fine.sendFrameInternal (c : Ctl) (f : Frame) (ty : RespType) : Fine c (c.sendFrameInternal f ty) := by
  cases ty with
  | masterResponse =>
    simp only [Ctl.sendFrameInternal]
    exact (Fine.updateFrameResponse _ _).andThen (Fine.requestFrame _ _ _)
  | slaveResponse =>
    simp only [Ctl.sendFrameInternal]
    split
    · exact Fine.tell _ _
    · unfold Ctl.sendFrameSlave
      split
      · exact Fine.ub c
      · split
        · exact (Fine.updateFrameResponse _ _).andThen (Fine.requestFrame _ _ _)
        · exact Fine.refl c
        · exact Fine.requestFrame _ _ _
  | slaveToSlave =>
    simp only [Ctl.sendFrameInternal]
    split
    · exact Fine.tell _ _
    · exact (Fine.tell _ _).andThen (Fine.requestFrame _ _ _)

theorem Fine.onTransmission (c : Ctl) (f : Frame) (s : FrameStatus) : Fine c (c.onTransmission f s) := by
  have hsl : ∀ c : Ctl, Fine c (c.sleepFrame f) := by
    intro c
    unfold Ctl.sleepFrame
    split
    · split
      · exact Fine.tell _ _
      · split
        · exact Fine.state rfl rfl rfl rfl
        · exact Fine.refl c
      · exact Fine.refl c
    · exact Fine.refl c
  unfold Ctl.onTransmission
  split
  · exact Fine.refl c
  · split
    · exact Fine.refl c
    · split
      · exact Fine.refl c
      · split
        · exact Fine.refl c
        · refine Fine.andThen ?_ (hsl _)
          split
          · exact Fine.tell _ _
          · exact Fine.refl c

theorem Fine.slaveConfigured (c : Ctl) : Fine c c.slaveConfigured := by
  unfold Ctl.slaveConfigured
  split
  · exact Fine.state rfl rfl rfl rfl
  · exact Fine.tell _ _

theorem Fine.take (c : Ctl) (src : Nat) (m : Msg) : Fine c (c.take src m) := by
  cases m with
  | frameRequest f ty => exact Fine.refl c
  | header id =>
    simp only [Ctl.take, Ctl.onHeader]
    split
    · exact Fine.tell _ _
    · exact Fine.processHeader _ _
  | transmission f s => exact Fine.onTransmission c f s
  | wakeup d => exact Fine.tell _ _
  | config mode dyn rs => exact (Fine.slaveConfigured _).of rfl rfl rfl rfl
  | responses rs => exact (Fine.slaveConfigured _).of rfl rfl rfl rfl
  | status s => exact Fine.state rfl rfl rfl rfl

theorem Fine.receive (c : Ctl) (src : Nat) (m : Msg) : Fine c (c.receive src m) := by
  unfold Ctl.receive
  split
  · exact Fine.refl c
  · split
    · exact Fine.refl c
    · split
      · exact Fine.refl c
      · exact Fine.take c src m

theorem Fine.onSim (c : Ctl) (x : SimInput) : Fine c (c.onSim x) := by
  cases x with
  | linkCreated q net => simp only [Ctl.onSim]; split <;> exact Fine.state rfl rfl rfl rfl
  | linkRemoved q net => simp only [Ctl.onSim]; split <;> exact Fine.state rfl rfl rfl rfl
  | msg q m =>
    simp only [Ctl.onSim]
    split
    · exact Fine.take _ _ _
    · exact Fine.refl c

/-- The call registers or removes a handler. -/
def Call.registers : Call → Bool
  | .addHandler _ | .removeHandler _ _ => true
  | _ => false

theorem Fine.goToSleepInternal (c : Ctl) : Fine c c.goToSleepInternal := by
  unfold Ctl.goToSleepInternal
  split
  · exact Fine.throw c
  · exact Fine.setStatus c _

theorem Fine.wakeupInternal (c : Ctl) : Fine c c.wakeupInternal := by
  unfold Ctl.wakeupInternal
  split
  · exact Fine.throw c
  · exact Fine.setStatus c _

theorem Fine.apiAlive (c : Ctl) (a : Call) (h : a.registers = false) : Fine c (c.apiAlive a) := by
  cases a with
  | init mode rs =>
    simp only [Ctl.apiAlive, Ctl.init]
    split
    · exact Fine.throw c
    · split
      · exact Fine.throw c
      · exact (Fine.distribute _ _).of rfl rfl rfl rfl
  | initDynamic mode =>
    simp only [Ctl.apiAlive, Ctl.initDynamic]
    split
    · exact Fine.throw c
    · split
      · exact Fine.throw c
      · exact (Fine.distribute _ _).of rfl rfl rfl rfl
  | sendDynamicResponse fr =>
    simp only [Ctl.apiAlive, Ctl.sendDynamicResponse]
    split
    · exact Fine.throw c
    · exact (Fine.updateFrameResponse _ _).andThen (Fine.processHeader _ _)
  | sendFrame fr ty =>
    simp only [Ctl.apiAlive, Ctl.sendFrame]
    split
    · exact Fine.throw c
    · split
      · exact Fine.throw c
      · split
        · exact Fine.throw c
        · exact Fine.sendFrameInternal _ _ _
  | sendFrameHeader id =>
    simp only [Ctl.apiAlive, Ctl.sendFrameHeader]
    split
    · exact Fine.throw c
    · split
      · exact Fine.throw c
      · exact Fine.requestHeader _ _
  | updateTxBuffer fr =>
    simp only [Ctl.apiAlive, Ctl.updateTxBuffer]
    split
    · exact Fine.throw c
    · split
      · exact Fine.throw c
      · split
        · exact Fine.ub c
        · split
          · exact Fine.throw c
          · refine Fine.andThen (Fine.state rfl rfl rfl rfl) ?_
            split
            · exact Fine.refl _
            · exact Fine.send _ _
  | setFrameResponse r =>
    simp only [Ctl.apiAlive, Ctl.setFrameResponse]
    split
    · exact Fine.throw c
    · split
      · exact Fine.throw c
      · split
        · exact Fine.refl c
        · split
          · exact Fine.refl c
          · split
            · exact Fine.refl c
            · exact Fine.updateFrameResponse _ _
  | goToSleep =>
    simp only [Ctl.apiAlive, Ctl.goToSleep]
    split
    · exact Fine.throw c
    · split
      · exact Fine.throw c
      · split
        · exact ((Fine.send _ _).andThen (Fine.tell _ _)).andThen (Fine.goToSleepInternal _)
        · exact (Fine.toSim _ _ _).andThen (Fine.setStatus _ _)
  | goToSleepInternal => exact Fine.goToSleepInternal c
  | wakeup =>
    simp only [Ctl.apiAlive, Ctl.wakeup]
    split
    · exact Fine.throw c
    · split
      · exact ((Fine.send _ _).andThen (Fine.tell _ _)).andThen (Fine.wakeupInternal _)
      · exact (Fine.toSim _ _ _).andThen (Fine.wakeupInternal _)
  | wakeupInternal => exact Fine.wakeupInternal c
  | getSlaveConfiguration =>
    simp only [Ctl.apiAlive, Ctl.getSlaveConfiguration]
    split
    · exact Fine.throw c
    · exact Fine.refl c
  | addHandler k => simp [Call.registers] at h
  | removeHandler k id => simp [Call.registers] at h
  | sim x => exact Fine.onSim c x

/-- As `Fine`, for all inputs. -/
structure Good (c : Ctl) (r : R) : Prop where
  self : r.1.self = c.self
  net : r.1.net = c.net
  dead : r.1.dead = true ↔ c.dead = true ∨ Did.ub ∈ dids r.2
  inv : ∀ t, Handling.H events c.handlers t → Handling.H events r.1.handlers (t ++ r.2)

theorem Fine.good {c : Ctl} {r : R} (h : Fine c r) : Good c r := ⟨h.self, h.net, h.dead, fun t ht => h.hnd ▸ h.inv t ht⟩

theorem Good.andThen {c : Ctl} {r : R} {f : Ctl → R} (h : Good c r) (h' : Good r.1 (f r.1)) : Good c (r.andThen f) := by
  refine ⟨h'.self.trans h.self, h'.net.trans h.net, ?_, fun t ht => ?_⟩
  · show (f r.1).1.dead = true ↔ _
    rw [h'.dead, h.dead]
    simp only [R.andThen, Handling.dids_append, List.mem_append, or_assoc]
  · rw [R.andThen, ← List.append_assoc]
    exact h'.inv _ (h.inv t ht)

theorem Good.apiAlive (c : Ctl) (a : Call) : Good c (c.apiAlive a) := by
  cases hr : a.registers with
  | false => exact (Fine.apiAlive c a hr).good
  | true =>
    cases a with
    | addHandler k =>
      simp only [Ctl.apiAlive, Ctl.addHandler]
      refine Good.andThen ⟨rfl, rfl, by simp [Handling.add, dids], fun t ht => ht.add k 0⟩ ?_
      split
      · refine Fine.good (Fine.of (Fine.tell _ _) ?_ ?_ ?_ ?_) <;> rfl
      · exact (Fine.refl _).good
    | removeHandler k id => exact ⟨rfl, rfl, by simp [Ctl.apiAlive, Ctl.removeHandler, Handling.remove, dids], fun t ht => ht.remove k id⟩
    | _ => simp [Call.registers] at hr

theorem Good.api (c : Ctl) (a : Call) : Good c (c.api a) := by
  unfold Ctl.api
  split
  · exact (Fine.refl c).good
  · exact Good.apiAlive c a

theorem Good.input (c : Ctl) (x : Input) : Good c (c.input x) := by
  cases x with
  | call a => exact Good.api c a
  | recv src m => exact (Fine.receive c src m).good

/-! ## One controller's history -/

theorem solo_append (i : Nat) (net : String) (h : List Input) (x : Input) : solo i net (h ++ [x]) = onInput (solo i net h) x := by simp [solo]
theorem conf_append (i : Nat) (h : List Input) (x : Input) : conf i (h ++ [x]) = Conf.input i (conf i h) x := by simp [conf]

theorem solo_good (i : Nat) (net : String) (h : List Input) :
    (solo i net h).1.self = i ∧ (solo i net h).1.net = net ∧ ((solo i net h).1.dead = true ↔ Did.ub ∈ dids (solo i net h).2) ∧
    Handling.H events (solo i net h).1.handlers (solo i net h).2 := by
  rw [← List.reverse_reverse h]
  induction h.reverse with
  | nil => exact ⟨rfl, rfl, by simp [solo, dids], Handling.H.nil⟩
  | cons x t ih =>
    rw [List.reverse_cons, solo_append]
    obtain ⟨i1, i2, i3, i4⟩ := ih
    have g := Good.input (solo i net t.reverse).1 x
    refine ⟨g.self.trans i1, g.net.trans i2, ?_, g.inv _ i4⟩
    simp only [onInput, Handling.dids_append, List.mem_append]
    rw [g.dead, i3]

theorem solo_I (i : Nat) (net : String) (h : List Input) (hok : ∀ x ∈ h, Input.Ok i x) : (solo i net h).1.dead = true ∨ I (solo i net h).1 (conf i h) := by
  rw [← List.reverse_reverse h] at hok ⊢
  generalize h.reverse = h at hok
  induction h with
  | nil => exact .inr (I.init i net)
  | cons x t ih =>
    rw [List.reverse_cons] at hok ⊢
    rw [solo_append, conf_append]
    have ih := ih fun y hy => hok y (by simp [List.mem_reverse.1 hy])
    have hs := (solo_good i net t.reverse).1
    have hx := hok x (by simp)
    cases hd : (solo i net t.reverse).1.dead with
    | true =>
      left
      exact (Good.input _ x).dead.2 (.inl hd)
    | false =>
      rw [hd] at ih
      have ih := ih.resolve_left (by simp)
      cases x with
      | call a =>
        have := ih.api a
        simp only [onInput, Ctl.input, Conf.input, Ctl.api, hd]
        exact this
      | recv src m =>
        right
        have := ih.receive (src := src) (m := m) hd (fun s e => by rw [hs]; exact hx s e)
        rw [hs] at this
        exact this

end SilKit.Lin
