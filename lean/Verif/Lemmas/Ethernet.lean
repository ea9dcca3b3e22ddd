import Verif.Spec.Ethernet
import Verif.Lemmas.Handling
import Verif.Lemmas.BusView
/-!
# One Ethernet controller: its handlers are called as specified
-/
namespace SilKit.Ethernet
open Spec Bus Bus.Spec Handling.Spec
open SilKit.Handling (H N)
open Util (two_pow_land three_land)

theorem passes_eq (mask : Nat) (n : Notice) : passes mask n = inMask mask n := by
  cases n with
  | frame e =>
      obtain ⟨f, d, c⟩ := e
      cases d
      · simp [passes, inMask, Direction.bits, includesTx, includesRx]
      · have := two_pow_land 0 mask
        simpa [passes, inMask, Direction.bits, includesTx, includesRx] using this
      · have := two_pow_land 1 mask
        simpa [passes, inMask, Direction.bits, includesTx, includesRx] using this
      · have := three_land mask
        simpa [passes, inMask, Direction.bits, includesTx, includesRx] using this
  | ack a =>
      obtain ⟨s, c⟩ := a
      cases s
      · exact two_pow_land 0 mask
      · exact two_pow_land 1 mask
      · exact two_pow_land 2 mask
      · exact two_pow_land 3 mask
      · exact two_pow_land 5 mask
  | state s => rfl
  | bitrate b => rfl

theorem pad_eq (raw : List Nat) : pad raw = padded raw := by
  unfold pad padded
  split
  · rfl
  · rename_i h
    have : 60 - raw.length = 0 := by omega
    rw [this]; simp

theorem visibleCtx_eq (e : FrameEvent) : visibleCtx e = if includesTx e.direction then e.ctx else 0 := by
  obtain ⟨r, d, c⟩ := e
  cases d <;> simp [visibleCtx, includesTx, Direction.bits]

/-- The state and the bit rate after some messages. -/
def after (x : State × Nat) : Did → State × Nat
  | .takes _ (.status s b) => (s, b)
  | _ => x

theorem noticesFrom_cons (s : State) (b : Nat) (d : Did) (t : List Did) :
    noticesFrom s b (d :: t) = noticesFrom s b [d] ++ noticesFrom (after (s, b) d).1 (after (s, b) d).2 t := by
  cases d with
  | toSim q m => rfl
  | takes src m => cases m <;> simp [noticesFrom, after]

theorem noticesFrom_append (s : State) (b : Nat) (t u : List Did) :
    noticesFrom s b (t ++ u) = noticesFrom s b t ++ noticesFrom (t.foldl after (s, b)).1 (t.foldl after (s, b)).2 u := by
  induction t generalizing s b with
  | nil => rfl
  | cons d t ih => rw [List.cons_append, noticesFrom_cons, ih, noticesFrom_cons s b d t, List.append_assoc]; rfl

/-- A controller and what it has done. -/
structure K (c : Ctl) (t : List Out) : Prop where
  handlers : H events c.handlers t
  notes : N (noticesFrom .inactive 0) t
  st : (c.state, c.bitrate) = (dids t).foldl after (.inactive, 0)

/-- A step that does not add or remove handlers. -/
theorem K.quiet {c c' : Ctl} {t u : List Out} (h : K c t) (hh : H events c'.handlers (t ++ u)) (ha : ∀ k id mask, Handling.Out.added k id mask ∉ u)
    (hn : tolds u = noticesFrom c.state c.bitrate (dids u)) (hs : (c'.state, c'.bitrate) = (dids u).foldl after (c.state, c.bitrate)) : K c' (t ++ u) := by
  refine ⟨hh, h.notes.quiet ha ?_, ?_⟩
  · rw [Handling.tolds_append, Handling.dids_append, noticesFrom_append, ← h.st, h.notes.all, hn]
  · rw [Handling.dids_append, List.foldl_append, ← h.st, hs]

theorem K.did {c : Ctl} {t : List Out} (h : K c t) (q : Nat) (m : ToSim) : K c (t ++ [.did (.toSim q m)]) :=
  h.quiet (h.handlers.did [.toSim q m]) (by simp) rfl rfl

/-- The handlers of one kind are called, or not. -/
def tellIf (b : Bool) (c : Ctl) (n : Notice) : List Out := if b then c.tell n else []

theorem setBitrate_eq (c : Ctl) (b : Nat) : c.setBitrate b = ({ c with bitrate := b }, tellIf (b != c.bitrate) c (.bitrate b)) := by
  unfold Ctl.setBitrate tellIf
  by_cases h : b = c.bitrate
  · subst h; simp
  · simp [h]; rfl

theorem setState_eq (c : Ctl) (s : State) : c.setState s = ({ c with state := s }, tellIf (s != c.state) c (.state s)) := by
  unfold Ctl.setState tellIf
  by_cases h : s = c.state
  · subst h; simp
  · simp [h]; rfl

theorem tolds_tellIf (b : Bool) (c : Ctl) (n : Notice) : tolds (tellIf b c n) = if b then [n] else [] := by
  unfold tellIf; split
  · exact Handling.tolds_tell _ _
  · rfl

theorem dids_tellIf (b : Bool) (c : Ctl) (n : Notice) : dids (tellIf b c n) = [] := by
  unfold tellIf; split
  · exact Handling.dids_tell _ _
  · rfl

theorem added_tellIf (b : Bool) (c : Ctl) (n : Notice) (k : Kind) (id mask : Nat) : Handling.Out.added k id mask ∉ tellIf b c n := by
  unfold tellIf; split
  · exact Handling.added_tell _ _ _
  · simp

theorem H_tellIf {T : Kind → Handling.Table} {t : List Out} (h : H events T t) (b : Bool) (c : Ctl) (n : Notice) (hc : c.handlers = T) : H events T (t ++ tellIf b c n) := by
  unfold tellIf; split
  · subst hc; exact h.tell n
  · rw [List.append_nil]; exact h

theorem K.take {c : Ctl} {t : List Out} (h : K c t) (src : Option (Nat × Nat)) (m : Msg) : K (c.take src m).1 (t ++ (c.take src m).2) := by
  have hd := h.handlers.did [.takes src m]
  cases m with
  | frame e =>
      simp only [Ctl.take]
      refine h.quiet ?_ ?_ ?_ ?_
      · have := hd.tell (.frame ⟨pad e.raw, e.direction, visibleCtx e⟩)
        rw [List.append_assoc] at this; exact this
      · intro k id mask hm
        rw [List.mem_cons] at hm
        rcases hm with hm | hm
        · cases hm
        · exact Handling.added_tell _ _ _ hm
      · have e1 : tolds (c.tell (.frame ⟨pad e.raw, e.direction, visibleCtx e⟩)) = _ := Handling.tolds_tell c.handlers _
        have e2 : dids (c.tell (.frame ⟨pad e.raw, e.direction, visibleCtx e⟩)) = _ := Handling.dids_tell c.handlers _
        have e3 : tolds (Handling.Out.did (Did.takes src (.frame e)) :: c.tell (.frame ⟨pad e.raw, e.direction, visibleCtx e⟩)) = tolds (c.tell (.frame ⟨pad e.raw, e.direction, visibleCtx e⟩)) := rfl
        have e4 : dids (Handling.Out.did (Did.takes src (.frame e)) :: c.tell (.frame ⟨pad e.raw, e.direction, visibleCtx e⟩)) = Did.takes src (.frame e) :: dids (c.tell (.frame ⟨pad e.raw, e.direction, visibleCtx e⟩)) := rfl
        rw [e3, e4, e1, e2]
        simp only [noticesFrom]
        rw [pad_eq, visibleCtx_eq]
      · have e2 : dids (c.tell (.frame ⟨pad e.raw, e.direction, visibleCtx e⟩)) = _ := Handling.dids_tell c.handlers _
        have e4 : dids (Handling.Out.did (Did.takes src (.frame e)) :: c.tell (.frame ⟨pad e.raw, e.direction, visibleCtx e⟩)) = Did.takes src (.frame e) :: dids (c.tell (.frame ⟨pad e.raw, e.direction, visibleCtx e⟩)) := rfl
        rw [e4, e2]; rfl
  | ack a =>
      simp only [Ctl.take]
      have e4 : dids (Handling.Out.did (Did.takes src (.ack a)) :: c.tell (.ack a)) = Did.takes src (.ack a) :: dids (c.tell (.ack a)) := rfl
      have e2 : dids (c.tell (.ack a)) = _ := Handling.dids_tell c.handlers _
      refine h.quiet ?_ ?_ ?_ ?_
      · have := hd.tell (.ack a)
        rw [List.append_assoc] at this; exact this
      · intro k id mask hm
        rw [List.mem_cons] at hm
        rcases hm with hm | hm
        · cases hm
        · exact Handling.added_tell _ _ _ hm
      · have e1 : tolds (c.tell (.ack a)) = _ := Handling.tolds_tell c.handlers _
        have e3 : tolds (Handling.Out.did (Did.takes src (.ack a)) :: c.tell (.ack a)) = tolds (c.tell (.ack a)) := rfl
        rw [e3, e4, e1, e2]; rfl
      · rw [e4, e2]; rfl
  | status s b =>
      simp only [Ctl.take, setBitrate_eq, setState_eq]
      generalize e : tellIf (b != c.bitrate) c (.bitrate b) = u1
      generalize e' : tellIf (s != c.state) { c with bitrate := b } (.state s) = u2
      have ed : dids (Handling.Out.did (Did.takes src (.status s b)) :: (u1 ++ u2)) = [Did.takes src (.status s b)] := by
        have : dids (Handling.Out.did (Did.takes src (.status s b)) :: (u1 ++ u2)) = Did.takes src (.status s b) :: dids (u1 ++ u2) := rfl
        rw [this, Handling.dids_append, ← e, ← e', dids_tellIf, dids_tellIf]; rfl
      refine h.quiet ?_ ?_ ?_ ?_
      · have h1 := H_tellIf hd (b != c.bitrate) c (.bitrate b) rfl
        have h2 := H_tellIf h1 (s != c.state) { c with bitrate := b } (.state s) rfl
        rw [e, e', List.append_assoc, List.append_assoc] at h2; exact h2
      · intro k id mask hm
        rw [List.mem_cons, List.mem_append, ← e, ← e'] at hm
        rcases hm with hm | hm | hm
        · cases hm
        · exact added_tellIf _ _ _ _ _ _ hm
        · exact added_tellIf _ _ _ _ _ _ hm
      · have : tolds (Handling.Out.did (Did.takes src (.status s b)) :: (u1 ++ u2)) = tolds (u1 ++ u2) := rfl
        rw [ed, this, Handling.tolds_append, ← e, ← e', tolds_tellIf, tolds_tellIf]
        simp [noticesFrom]
      · rw [ed]; rfl

theorem K.receive {c : Ctl} {t : List Out} (h : K c t) (src : Nat × Nat) (m : Msg) : K (c.receive src m).1 (t ++ (c.receive src m).2) := by
  unfold Ctl.receive; split
  · exact h.take _ _
  · rw [List.append_nil]; exact h

theorem K.setMode {c : Ctl} {t : List Out} (h : K c t) (a : Bool) : K (c.setMode a).1 (t ++ (c.setMode a).2) := by
  unfold Ctl.setMode; split
  · exact h.take _ _
  · exact h.did _ _

theorem K.onSim {c : Ctl} {t : List Out} (h : K c t) (x : SimInput) : K (c.onSim x).1 (t ++ (c.onSim x).2) := by
  cases x with
  | msg src m => exact h.receive src m
  | linkCreated q net => simp only [Ctl.onSim]; split <;> (rw [List.append_nil]; exact ⟨h.handlers, h.notes, h.st⟩)
  | linkRemoved q net => simp only [Ctl.onSim]; split <;> (rw [List.append_nil]; exact ⟨h.handlers, h.notes, h.st⟩)

/-- What sending a frame outputs. -/
theorem sendFrame_out (c : Ctl) (raw : List Nat) (ctx : Nat) (hs : c.sim = none) : (c.sendFrame raw ctx).filterMap actOut =
    (if c.state = .linkUp then (c.take none (.frame ⟨raw, .tx, ctx⟩)).2 else []) ++ (c.take none (.ack ⟨transmitStatus c.state, ctx⟩)).2 := by
  unfold Ctl.sendFrame
  rw [hs]
  simp only
  rw [List.filterMap_append, filterMap_actOut]
  unfold Ctl.transmit
  split
  · rw [List.filterMap_cons]; simp only [actOut]; rw [filterMap_actOut]
  · rfl

theorem K.api {c : Ctl} {t : List Out} (h : K c t) (a : Call) : K (c.api a).1 (t ++ (c.api a).2.filterMap actOut) := by
  cases a with
  | activate =>
      simp only [Ctl.api, asActs]; rw [filterMap_actOut]
      unfold Ctl.activate; split
      · rw [List.append_nil]; exact h
      · exact h.setMode _
  | deactivate =>
      simp only [Ctl.api, asActs]; rw [filterMap_actOut]
      unfold Ctl.deactivate; split
      · rw [List.append_nil]; exact h
      · exact h.setMode _
  | sendFrame raw ctx =>
      simp only [Ctl.api]
      cases hs : c.sim with
      | none =>
          rw [sendFrame_out c raw ctx hs, ← List.append_assoc]
          have h1 : K c (t ++ if c.state = .linkUp then (c.take none (.frame ⟨raw, .tx, ctx⟩)).2 else []) := by
            split
            · exact h.take none (.frame ⟨raw, .tx, ctx⟩)
            · rw [List.append_nil]; exact h
          exact h1.take none (.ack ⟨transmitStatus c.state, ctx⟩)
      | some q =>
          unfold Ctl.sendFrame; rw [hs]
          exact h.did _ _
  | addHandler k mask =>
      simp only [Ctl.api, asActs]; rw [filterMap_actOut]
      refine ⟨h.handlers.add k mask, h.notes.add k _ mask, ?_⟩
      simp only [Ctl.addHandler, Handling.add]
      rw [Handling.dids_append]; simpa [dids] using h.st
  | removeHandler k id =>
      simp only [Ctl.api, asActs]; rw [filterMap_actOut]
      refine ⟨h.handlers.remove k id, h.notes.remove k id, ?_⟩
      simp only [Ctl.removeHandler, Handling.remove]
      rw [Handling.dids_append]; simpa [dids] using h.st
  | sim x =>
      simp only [Ctl.api, asActs]; rw [filterMap_actOut]
      exact h.onSim x

theorem solo_K (i : Nat) (net : String) (h : List (Input Call FrameEvent)) : K (solo service i net h).1 (ctlTrace i net h) := by
  refine solo_induction (P := fun r => K r.1 r.2) ⟨H.nil, N.nil rfl, rfl⟩ ?_ h
  intro r x hr
  cases x with
  | inl a => exact hr.api a
  | inr y => exact hr.receive y.1 (.frame y.2)

/-- Notices of frames. -/
theorem frame_notice {e : FrameEvent} {s : State} {b : Nat} {t : List Did} (hm : Notice.frame e ∈ noticesFrom s b t) :
    ∃ src f, Did.takes src (.frame f) ∈ t ∧ e = ⟨padded f.raw, f.direction, if includesTx f.direction then f.ctx else 0⟩ := by
  induction t generalizing s b with
  | nil => simp [noticesFrom] at hm
  | cons d t ih =>
      rw [noticesFrom_cons, List.mem_append] at hm
      rcases hm with hm | hm
      · cases d with
        | toSim q m => simp [noticesFrom] at hm
        | takes src m =>
            cases m with
            | frame f =>
                simp only [noticesFrom, List.mem_singleton, Notice.frame.injEq] at hm
                exact ⟨src, f, List.mem_cons_self, hm⟩
            | ack a => simp [noticesFrom] at hm
            | status s' b' =>
                simp only [noticesFrom, List.append_nil, List.mem_append] at hm
                rcases hm with hm | hm <;> split at hm <;> simp at hm
      · obtain ⟨src, f, h1, h2⟩ := ih hm
        exact ⟨src, f, List.mem_cons_of_mem _ h1, h2⟩

end SilKit.Ethernet
