import Verif.Lemmas.LinInv
/-!
# LIN networks: from the request of a frame to what everybody reports
-/
namespace SilKit.Lin
open SilKit.Lin.Spec SilKit.Handling.Spec

/-! ## What is reported on reception -/

theorem tolds_tell' (c : Ctl) (n : Notice) : tolds (c.tell n).2 = [n] := Handling.tolds_tell _ _

theorem tolds_andThen (r : R) (f : Ctl → R) : tolds (r.andThen f).2 = tolds r.2 ++ tolds (f r.1).2 := Handling.tolds_append _ _

theorem calcStatus_eq {c : Ctl} {f : Conf} (h : I c f) (q : Q c f) (hd : f.isDynamic = false) (fr : Frame) (s : FrameStatus) :
    c.calcStatus fr s = match (f.resp fr.id).mode with
      | .unused => .notOk
      | .rx => if fits (f.resp fr.id).frame fr then s else .rxError
      | .tx => asTx s := by
  have e : ∀ a b, mismatch a b = !fits a b := by
    intro a b
    simp only [mismatch, fits, bne, Bool.not_and, Bool.not_or, Bool.and_assoc]
    generalize (a.dataLength == lengthUnknown) = x1
    generalize (a.dataLength == b.dataLength) = x2
    generalize (a.checksum == Checksum.unknown) = x3
    generalize (b.checksum == Checksum.unknown) = x4
    generalize (a.checksum == b.checksum) = x5
    revert x1 x2 x3 x4 x5
    decide
  simp only [Ctl.calcStatus, h.ownDyn, hd, q.sim, h.ownResp]
  cases (f.resp fr.id).mode with
  | unused => rfl
  | rx =>
    simp only [e]
    cases fits (f.resp fr.id).frame fr <;> rfl
  | tx => cases s <;> rfl

theorem tolds_onTransmission {c : Ctl} {f : Conf} (h : I c f) (q : Q c f) (hd : f.isDynamic = false) {fr : Frame} (hid : fr.id < 64) {s : FrameStatus} (hs : s ≠ .notOk) :
    tolds (c.onTransmission fr s).2 = f.sees fr s := by
  have hsp : c.status ≠ .sleepPending := by rw [q.st]; exact Conf.status_sp _
  unfold Ctl.onTransmission Conf.sees
  rw [h.mode]
  by_cases hm : f.mode = .inactive
  · rw [if_pos hm, if_pos (.inl hm)]; rfl
  rw [if_neg hm]
  by_cases ha : f.asleep = true
  · rw [if_pos (by rw [q.st, Conf.status, if_neg hm, if_pos ha]; exact .inl rfl), if_pos (.inr (.inl ha))]; rfl
  rw [if_neg (by rw [q.st, Conf.status, if_neg hm, if_neg ha]; simp)]
  by_cases hl : fr.dataLength ≠ lengthUnknown ∧ fr.dataLength > 8
  · rw [if_pos hl, if_pos (.inr (.inr ⟨hl.2, hl.1⟩))]; rfl
  rw [if_neg hl, if_neg (Nat.not_le.2 hid), if_neg (c := f.mode = .inactive ∨ _) (by rintro (h | h | h); exact hm h; exact ha h; exact hl ⟨h.2, h.1⟩)]
  rw [tolds_andThen, calcStatus_eq h q hd]
  have e1 : ∀ st : FrameStatus, (if st ≠ .notOk then c.tell (.frame fr st) else (c, [])).1 = c := by
    intro st; split <;> rfl
  rw [e1]
  congr 1
  · cases (f.resp fr.id).mode with
    | unused => rfl
    | rx =>
      simp only
      split
      · rw [tolds_tell']
      · rw [if_pos (by decide), tolds_tell']
    | tx =>
      have : asTx s ≠ .notOk := by cases s <;> simp_all [asTx]
      simp only
      rw [if_pos this, tolds_tell']
  · unfold Ctl.sleepFrame isGoToSleep
    rw [h.mode]
    by_cases hg : fr.id = goToSleepFrame.id ∧ fr.data = goToSleepFrame.data
    · rw [if_pos (by simp [hg.1, hg.2])]
      cases hmm : f.mode with
      | slave => simp only; rw [tolds_tell', if_pos ⟨trivial, hg.1, hg.2⟩]
      | master => rfl
      | inactive => exact absurd hmm hm
    · rw [if_neg (by simpa using hg), if_neg (fun h => hg h.2)]; rfl

/-! ## Who responds, as the master sees it -/

theorem sorted_ext : ∀ {a b : List Nat}, a.Pairwise (· < ·) → b.Pairwise (· < ·) → (∀ x, x ∈ a ↔ x ∈ b) → a = b
  | [], [], _, _, _ => rfl
  | [], b :: t, _, _, h => by have := (h b).2 (by simp); simp at this
  | a :: t, [], _, _, h => by have := (h a).1 (by simp); simp at this
  | a :: s, b :: t, ha, hb, h => by
    rw [List.pairwise_cons] at ha hb
    have e : a = b := by
      have h1 := (h a).1 (by simp)
      have h2 := (h b).2 (by simp)
      rw [List.mem_cons] at h1 h2
      rcases h1 with h1 | h1
      · exact h1
      · rcases h2 with h2 | h2
        · exact h2.symm
        · have := ha.1 b h2
          have := hb.1 a h1
          omega
    subst e
    congr 1
    refine sorted_ext ha.2 hb.2 fun x => ⟨fun hx => ?_, fun hx => ?_⟩
    · have h1 := (h x).1 (by simp [hx])
      rw [List.mem_cons] at h1
      rcases h1 with h1 | h1
      · have := ha.1 x hx; omega
      · exact h1
    · have h1 := (h x).2 (by simp [hx])
      rw [List.mem_cons] at h1
      rcases h1 with h1 | h1
      · have := hb.1 x hx; omega
      · exact h1

def responds (id : Nat) (x : Nat × Node) : Bool := x.2.active && (x.2.resp id).mode == .tx

theorem responseStep_count (id : Nat) (l : List (Nat × Node)) (r : Nat × Frame) : (l.foldl (responseStep id) r).1 = r.1 + (l.filter (responds id)).length := by
  induction l generalizing r with
  | nil => rfl
  | cons x t ih =>
    rw [List.foldl_cons, ih, List.filter_cons]
    have e : responseStep id r x = if responds id x = true then (r.1 + 1, (x.2.resp id).frame) else r := rfl
    rw [e]
    cases responds id x with
    | true => simp only [if_true, List.length_cons]; omega
    | false => rfl

theorem responseStep_frame (id : Nat) (l : List (Nat × Node)) (r : Nat × Frame) :
    (l.foldl (responseStep id) r).2 = r.2 ∧ l.filter (responds id) = [] ∨ ∃ x ∈ l, responds id x = true ∧ (l.foldl (responseStep id) r).2 = (x.2.resp id).frame := by
  induction l generalizing r with
  | nil => exact .inl ⟨rfl, rfl⟩
  | cons x t ih =>
    rw [List.foldl_cons]
    rcases ih (responseStep id r x) with ⟨e, hf⟩ | ⟨y, hy, h1, h2⟩
    · cases hx : responds id x with
      | true =>
        refine .inr ⟨x, by simp, hx, ?_⟩
        rw [e, responseStep]
        rw [responds] at hx
        rw [if_pos hx]
      | false =>
        refine .inl ⟨?_, by rw [List.filter_cons, hx]; exact hf⟩
        rw [e, responseStep]
        rw [responds] at hx
        rw [if_neg (by rw [hx]; simp)]
    · exact .inr ⟨y, by simp [hy], h1, h2⟩

/-- The nodes that a controller counts. -/
theorem getResponse_count (c : Ctl) (id : Nat) : (c.getResponse id).1 = (c.nodes.filter (responds id)).length := by
  have := responseStep_count id c.nodes (0, { id := id })
  simpa [Ctl.getResponse] using this

theorem getResponse_frame (c : Ctl) (id : Nat) :
    (c.getResponse id).2 = { id := id } ∧ c.nodes.filter (responds id) = [] ∨ ∃ x ∈ c.nodes, responds id x = true ∧ (c.getResponse id).2 = (x.2.resp id).frame :=
  responseStep_frame id c.nodes (0, { id := id })

theorem filter_pairwise {l : List (Nat × Node)} (h : Sorted l) (p : Nat × Node → Bool) : ((l.filter p).map (·.1)).Pairwise (· < ·) := by
  rw [List.pairwise_map]
  exact List.Pairwise.sublist List.filter_sublist h

/-- The master knows the responders. -/
theorem counted {k : Nat} {h : List Act} {s : Net} {t : List Ev} (ni : NI k h s t) (facts : ∀ i, (s.ctl i).self = i ∧ (s.ctl i).dead = false ∧ I (s.ctl i) (confAt i t) ∧ Q (s.ctl i) (confAt i t))
    {m id : Nat} (hm : m < k) (hq : ∀ i, i < k → i ≠ m → s.chan i m = []) (hmm : (confAt m t).mode = .master) (hone : ∀ i, i < k → i ≠ m → (confAt i t).mode ≠ .master)
    (haw : ∀ i ∈ responders k t id, i ≠ m → (confAt i t).asleep = false) :
    ((s.ctl m).nodes.filter (responds id)).map (·.1) = responders k t id := by
  obtain ⟨fm1, fm2, fm3, fm4⟩ := facts m
  refine sorted_ext (filter_pairwise fm3.sorted _) (List.Pairwise.sublist List.filter_sublist List.pairwise_lt_range) fun i => ?_
  have key : i < k → ((getNode i (s.ctl m).nodes).active = true ∧ ((getNode i (s.ctl m).nodes).resp id).mode = .tx ↔ ((confAt i t).resp id).mode = .tx) := by
    intro hi
    by_cases e : i = m
    · subst e
      have eo : getNode i (s.ctl i).nodes = (s.ctl i).own := by rw [Ctl.own, fm1]
      rw [eo, fm3.ownResp, Node.active, fm3.ownMode, hmm, fm4.own (by rw [hmm]; simp)]
      simp
    · obtain ⟨f1, f2, f3, f4⟩ := facts i
      have kn := ni.knows i m hi hm e
      rw [hq i hi e, List.foldl_nil] at kn
      have al : ((getNode i (s.ctl m).nodes).resp id).mode = ((confAt i t).resp id).mode := by
        rw [← f3.ownResp]
        exact (kn.resp (by rw [f3.mode]; exact hone i hi e) id).1
      rw [al]
      refine ⟨fun h => h.2, fun h => ⟨?_, h⟩⟩
      have hmode : (confAt i t).mode = .slave := by
        cases hmo : (confAt i t).mode with
        | slave => rfl
        | master => exact absurd hmo (hone i hi e)
        | inactive =>
          have := ni.idle i hmo id
          rw [h] at this
          cases this
      have has : (confAt i t).asleep = false := haw i (by simp [responders, hi, h]) e
      have hst := kn.status (f3.mode.trans hmode)
      rw [f4.st, Conf.status, hmode, if_neg (by simp), has] at hst
      have hmo := kn.mode
      rw [f3.mode, hmode] at hmo
      simp [Node.active, hmo, hst]
  constructor
  · intro hx
    rw [List.mem_map] at hx
    obtain ⟨⟨a, n⟩, hx, e⟩ := hx
    simp only at e
    subst e
    rw [List.mem_filter] at hx
    have hi : a < k := ni.addr m _ hx.1
    have hg := getNode_mem fm3.sorted hx.1
    have := hx.2
    simp only [responds, Bool.and_eq_true, beq_iff_eq] at this
    have := (key hi).1 (by rw [hg]; exact this)
    simp [responders, hi, this]
  · intro hx
    simp only [responders, List.mem_filter, List.mem_range, beq_iff_eq] at hx
    have := (key hx.1).2 hx.2
    rw [List.mem_map]
    refine ⟨(i, getNode i (s.ctl m).nodes), ?_, rfl⟩
    rw [List.mem_filter]
    exact ⟨mem_of_getNode this.1, by simp [responds, this]⟩

/-- The frame that the master sees, if several respond. -/
theorem counted_frame {k : Nat} {h : List Act} {s : Net} {t : List Ev} (ni : NI k h s t) (facts : ∀ i, (s.ctl i).self = i ∧ (s.ctl i).dead = false ∧ I (s.ctl i) (confAt i t) ∧ Q (s.ctl i) (confAt i t))
    {m id : Nat} (hm : m < k) (hq : ∀ i, i < k → i ≠ m → s.chan i m = []) (hone : ∀ i, i < k → i ≠ m → (confAt i t).mode ≠ .master)
    {x : Nat × Node} (hx : x ∈ (s.ctl m).nodes) : x.1 < k ∧ Alike (x.2.resp id) ((confAt x.1 t).resp id) := by
  obtain ⟨fm1, fm2, fm3, fm4⟩ := facts m
  have hi := ni.addr m x hx
  refine ⟨hi, ?_⟩
  have hg := getNode_mem (a := x.1) (n := x.2) fm3.sorted hx
  by_cases e : x.1 = m
  · have eo : x.2 = (s.ctl m).own := by rw [Ctl.own, fm1]; rw [e] at hg; exact hg.symm
    rw [eo, fm3.ownResp, e]
    exact Alike.refl _
  · obtain ⟨f1, f2, f3, f4⟩ := facts x.1
    have kn := ni.knows x.1 m hi hm e
    rw [hq x.1 hi e, List.foldl_nil, hg] at kn
    rw [← f3.ownResp]
    exact kn.resp (by rw [f3.mode]; exact hone x.1 hi e) id

theorem noDynamic {k : Nat} {h : List Act} {s : Net} {t : List Ev} (ni : NI k h s t) (facts : ∀ i, (s.ctl i).self = i ∧ (s.ctl i).dead = false ∧ I (s.ctl i) (confAt i t) ∧ Q (s.ctl i) (confAt i t))
    {m : Nat} (hm : m < k) (hq : ∀ i, i < k → i ≠ m → s.chan i m = []) : (s.ctl m).hasDynamicNode = false := by
  obtain ⟨fm1, fm2, fm3, fm4⟩ := facts m
  unfold Ctl.hasDynamicNode
  rw [List.any_eq_false]
  intro x hx
  have hi := ni.addr m x hx
  have hg := getNode_mem (a := x.1) (n := x.2) fm3.sorted hx
  by_cases e : x.1 = m
  · have eo : x.2 = (s.ctl m).own := by rw [Ctl.own, fm1]; rw [e] at hg; exact hg.symm
    rw [eo, fm3.ownDyn, ni.static]
    simp
  · have kn := ni.knows x.1 m hi hm e
    rw [hq x.1 hi e, List.foldl_nil, hg] at kn
    rw [kn.dyn]
    simp

/-! ## The request -/

/-- The call requests a header, after it has changed the controller. -/
theorem request_eq {c : Ctl} {f : Conf} (h : I c f) (q : Q c f) (hdy : f.isDynamic = false) {id : Nat} (hid : id < 64) {a : Call} (hr : f.requests id a) :
    ∃ pre, c.apiAlive a = (((c.apiAlive a).1.requestHeader id).1, pre ++ ((c.apiAlive a).1.requestHeader id).2) ∧ tolds pre = firstReport a ∧ sendsOf pre = [] := by
  have hst : ∀ {f : Conf}, f.mode = .master → f.asleep = false → f.status = .operational := by
    intro f h1 h2
    simp [Conf.status, h1, h2]
  have out : ∀ (c' : Ctl) (pre : List Out), (∀ x ∈ c'.nodes, x.2.Ok) → c.apiAlive a = ((c'.requestHeader id).1, pre ++ (c'.requestHeader id).2) →
      tolds pre = firstReport a → sendsOf pre = [] →
      ∃ pre, c.apiAlive a = (((c.apiAlive a).1.requestHeader id).1, pre ++ ((c.apiAlive a).1.requestHeader id).2) ∧ tolds pre = firstReport a ∧ sendsOf pre = [] := by
    intro c' pre hok e h1 h2
    refine ⟨pre, ?_, h1, h2⟩
    have e1 : (c.apiAlive a).1 = c' := by rw [e]; exact requestHeader_alive hid hok
    rw [e1]
    exact e
  cases a with
  | sendFrameHeader x =>
    obtain ⟨rfl, hm⟩ := hr
    refine out c [] h.ok ?_ rfl rfl
    simp only [Ctl.apiAlive, Ctl.sendFrameHeader]
    rw [if_neg (by rw [h.st, hm]; simp), if_neg (by rw [h.mode, hm]; simp)]
    rfl
  | sendFrame fr ty =>
    have hm : f.mode = .master ∧ f.asleep = false ∧ fr.id = id := by
      cases ty <;> exact ⟨hr.2.1, by first | exact hr.2.2 | exact hr.2.2.1, hr.1⟩
    obtain ⟨hm, ha, rfl⟩ := hm
    have e0 : c.apiAlive (.sendFrame fr ty) = c.sendFrameInternal fr ty := by
      simp only [Ctl.apiAlive, Ctl.sendFrame]
      rw [if_neg (by rw [h.st, hm]; simp), if_neg (by rw [h.mode, hm]; simp), if_neg (by rw [h.dyn, hdy]; simp)]
    have rq : ∀ {c' : Ctl}, c'.sim = none → c'.status = .operational → c'.requestFrame fr ty = c'.requestHeader fr.id := by
      intro c' h1 h2
      simp only [Ctl.requestFrame, h1, h2]
      rw [if_neg (by simp)]
    have so : c.status = .operational := by rw [q.st]; exact hst hm ha
    have uf : ∀ r, (c.updateFrameResponse r).2 = [] := by
      intro r
      simp only [Ctl.updateFrameResponse, Ctl.distribute]
      rw [if_neg]
      rintro (h' | h')
      · exact h' q.sim
      · rw [show (c.setOwn fun x => x.updateResponses [r]).mode = c.mode from rfl, h.mode, hm] at h'
        cases h'
    have ann : ∀ hr' : f.announced fr.id = true, (!c.hasRespondingSlave fr.id && !c.hasDynamicNode) = false := by
      intro hr'
      rw [Ctl.hasRespondingSlave, h.ids, hr']
      rfl
    cases ty with
    | masterResponse =>
      refine out (c.updateFrameResponse ⟨fr, .tx⟩).1 [] (updateFrameResponse_ok h _) ?_ rfl rfl
      rw [e0]
      simp only [Ctl.sendFrameInternal, R.andThen]
      rw [uf, rq (by rw [updateFrameResponse_fst]; exact q.sim) (by rw [updateFrameResponse_fst]; exact so)]
    | slaveResponse =>
      have hs : c.sendFrameInternal fr .slaveResponse = c.sendFrameSlave fr := by
        simp only [Ctl.sendFrameInternal]
        rw [ann hr.2.2.2.1]
        rfl
      cases hmo : (c.own.resp fr.id).mode with
      | unused =>
        refine out (c.updateFrameResponse ⟨fr, .rx⟩).1 [] (updateFrameResponse_ok h _) ?_ rfl rfl
        rw [e0, hs, Ctl.sendFrameSlave, if_neg (Nat.not_le.2 hid), hmo]
        simp only [R.andThen]
        rw [uf, rq (by rw [updateFrameResponse_fst]; exact q.sim) (by rw [updateFrameResponse_fst]; exact so)]
      | tx =>
        rw [h.ownResp] at hmo
        exact absurd hmo hr.2.2.2.2
      | rx =>
        refine out c [] h.ok ?_ rfl rfl
        rw [e0, hs, Ctl.sendFrameSlave, if_neg (Nat.not_le.2 hid), hmo]
        simp only
        rw [rq q.sim so]
        rfl
    | slaveToSlave =>
      refine out c (c.tell (.frame fr .txOk)).2 h.ok ?_ (tolds_tell' _ _) (sends_tell _ _)
      rw [e0]
      simp only [Ctl.sendFrameInternal, ann hr.2.2.2, R.andThen]
      show _ = _
      simp only [Bool.false_eq_true, if_false]
      rw [show (c.tell (.frame fr .txOk)).1 = c from rfl, rq q.sim so]
  | _ => exact absurd hr (by simp [Conf.requests])

/-! ## Deliveries -/

theorem step_deliver {s : Net} {i j : Nat} {msg : Msg} {rest : List Msg} {os : List Out} (hi : i < s.k) (hj : j < s.k) (hc : s.chan i j = msg :: rest)
    (hr : (s.ctl j).receive i msg = (s.ctl j, os)) :
    (s.step (.deliver i j)).1.ctl = s.ctl ∧ (s.step (.deliver i j)).1.opn = s.opn ∧
    (∀ p q, (s.step (.deliver i j)).1.chan p q = (if p = i ∧ q = j then rest else s.chan p q) ++ (if p = j then (sendsOf os).filter (s.goesTo j q) else [])) ∧
    ∀ q, reported q (s.step (.deliver i j)).2 = if q = j then tolds os else [] := by
  have e : s.step (.deliver i j) = ((s.pop i j).become j (s.ctl j, os), Ev.recv j i msg :: os.map (.out j)) := by
    simp only [Net.step, if_pos (And.intro hi hj), hc, Net.deliver, hr]
  rw [e]
  refine ⟨?_, ?_, fun p q => ?_, fun q => ?_⟩
  · rw [become_ctl]
    funext q
    unfold upd
    split
    · rename_i h; rw [h]
    · rfl
  · rw [become_opn]; rfl
  · rw [become_chan]
    congr 1
    simp only [Net.pop]
    split
    · rename_i h; rw [h.1, h.2, hc]; rfl
    · rfl
  · unfold reported
    rw [show ∀ l : List Ev, Ev.recv j i msg :: l = [Ev.recv j i msg] ++ l from fun _ => rfl, outs_append, outs_outs]
    simp only [outs, List.filterMap_cons, List.filterMap_nil, outOf, List.nil_append]
    by_cases h : j = q
    · simp [h]
    · rw [if_neg h, if_neg (Ne.symm h)]; rfl

theorem step_deliver_none {s : Net} {i j : Nat} (h : ¬ (i < s.k ∧ j < s.k) ∨ s.chan i j = []) : s.step (.deliver i j) = (s, []) := by
  simp only [Net.step]
  split
  · rename_i h'
    rcases h with h | h
    · exact absurd h' h
    · rw [h]; rfl
  · rfl

/-- One node responds: how far the header and the response have come. -/
structure PA (s0 : Net) (base : Nat → List Notice) (cf : Nat → Conf) (m r id : Nat) (F : Frame) (H X : Nat → Bool) (s : Net) (t : List Ev) : Prop where
  k : s.k = s0.k
  ctl : s.ctl = s0.ctl
  opn : s.opn = s0.opn
  chan : ∀ p q, s.chan p q = (if p = m ∧ q < s0.k ∧ H q = false then [.header id] else []) ++
    (if p = r ∧ q < s0.k ∧ q ≠ r ∧ H r = true ∧ X q = false then [.transmission F .rxOk] else [])
  xh : ∀ q, X q = true → H r = true
  told : ∀ q, q < s0.k → reported q t = base q ++ (if q = r then (if H r = true then [.frame F .txOk] else []) else if X q = true then (cf q).sees F .rxOk else [])

theorem PA.step {s0 : Net} {base : Nat → List Notice} {cf : Nat → Conf} {m r id : Nat} {F : Frame} {H X : Nat → Bool} {s : Net} {t : List Ev}
    (hm : m < s0.k) (hr : r < s0.k) (hdr : ∀ q, q < s0.k → q ≠ r → (s0.ctl q).receive m (.header id) = (s0.ctl q, []))
    (hdrR : ∃ os, (s0.ctl r).receive m (.header id) = (s0.ctl r, os) ∧ sendsOf os = [.transmission F .rxOk] ∧ tolds os = [.frame F .txOk])
    (tr : ∀ q, q < s0.k → q ≠ r → ∃ os, (s0.ctl q).receive r (.transmission F .rxOk) = (s0.ctl q, os) ∧ sendsOf os = [] ∧ tolds os = (cf q).sees F .rxOk)
    (goes : ∀ q, q < s0.k → q ≠ r → s0.opn r q .transmission = true) (h : PA s0 base cf m r id F H X s t) (i j : Nat) :
    ∃ H X, PA s0 base cf m r id F H X (s.step (.deliver i j)).1 (t ++ (s.step (.deliver i j)).2) := by
  have quiet : (¬ (i < s.k ∧ j < s.k) ∨ s.chan i j = []) → ∃ H X, PA s0 base cf m r id F H X (s.step (.deliver i j)).1 (t ++ (s.step (.deliver i j)).2) := by
    intro hq
    rw [step_deliver_none hq]
    simp only [List.append_nil]
    exact ⟨H, X, h⟩
  by_cases hk : i < s.k ∧ j < s.k
  rotate_left
  · exact quiet (.inl hk)
  have hk0 : i < s0.k ∧ j < s0.k := by rw [← h.k]; exact hk
  have hc := h.chan i j
  by_cases h1 : i = m ∧ j < s0.k ∧ H j = false
  · rw [if_pos h1] at hc
    obtain ⟨rfl, _, hH⟩ := h1
    by_cases hjr : j = r
    · subst hjr
      rw [hH] at hc
      have hc' : s.chan i j = [.header id] := by rw [hc]; simp
      obtain ⟨os, e1, e2, e3⟩ := hdrR
      obtain ⟨s1, s2, s3, s4⟩ := step_deliver hk.1 hk.2 hc' (os := os) (by rw [h.ctl]; exact e1)
      have hX : ∀ q, X q = false := by
        intro q
        cases hx : X q with
        | false => rfl
        | true => rw [h.xh q hx] at hH; cases hH
      refine ⟨upd H j true, X, (step_k _ _).trans h.k, s1.trans h.ctl, s2.trans h.opn, fun p q => ?_, fun _ _ => by simp [upd], fun q hq => ?_⟩
      · rw [s3, h.chan p q, e2, hH, hX]
        by_cases hp : p = i ∧ q = j
        · obtain ⟨rfl, rfl⟩ := hp
          have : s.goesTo q q (.transmission F .rxOk) = false := by simp [Net.goesTo, Msg.selfDelivered]
          simp [upd, this]
        · rw [if_neg hp]
          have e5 : p = j → (List.filter (s.goesTo j q) [Msg.transmission F .rxOk]) = if q < s0.k ∧ q ≠ j then [.transmission F .rxOk] else [] := by
            intro _
            by_cases hg : q < s0.k ∧ q ≠ j
            · rw [if_pos hg]
              have : s.goesTo j q (.transmission F .rxOk) = true := by
                simp only [Net.goesTo, h.k, h.opn, if_neg hg.2, goes q hg.1 hg.2, Msg.ty, hg.1, decide_true, Bool.and_self]
              simp [this]
            · rw [if_neg hg]
              have : s.goesTo j q (.transmission F .rxOk) = false := by
                simp only [Net.goesTo, h.k]
                by_cases hq : q < s0.k
                · have : q = j := by
                    rcases Nat.lt_or_ge q s0.k with _ | _
                    · by_cases e : q = j
                      · exact e
                      · exact absurd ⟨hq, e⟩ hg
                    · omega
                  simp [this, Msg.selfDelivered]
                · simp [hq]
              simp [this]
          congr 1
          · have : (p = i ∧ q < s0.k ∧ H q = false) ↔ (p = i ∧ q < s0.k ∧ upd H j true q = false) := by
              unfold upd
              by_cases e : q = j
              · simp only [e, if_true]
                constructor
                · intro h'; exact absurd ⟨h'.1, e⟩ hp
                · intro h'; cases h'.2.2
              · rw [if_neg e]
            simp only [this]
            simp
          · by_cases hp' : p = j
            · rw [if_pos hp', e5 hp']
              simp [hp', upd]
            · rw [if_neg hp', if_neg (fun h => hp' h.1)]
      · rw [reported_append, h.told q hq, s4]
        by_cases e : q = j
        · simp [e, hH, e3, upd]
        · simp [e]
    · have hrest : ∃ rest, s.chan i j = .header id :: rest := ⟨_, hc⟩
      obtain ⟨rest, hc'⟩ := hrest
      have hre : rest = (if i = r ∧ j < s0.k ∧ j ≠ r ∧ H r = true ∧ X j = false then [.transmission F .rxOk] else []) := by
        rw [hc'] at hc
        injection hc
      obtain ⟨s1, s2, s3, s4⟩ := step_deliver hk.1 hk.2 hc' (os := []) (by rw [h.ctl]; exact hdr j hk0.2 hjr)
      have hHr : upd H j true r = H r := by simp [upd, Ne.symm hjr]
      refine ⟨upd H j true, X, (step_k _ _).trans h.k, s1.trans h.ctl, s2.trans h.opn, fun p q => ?_, fun q hx => by rw [hHr]; exact h.xh q hx, fun q hq => ?_⟩
      · rw [s3, hHr]
        have : (if p = j then (sendsOf []).filter (s.goesTo j q) else []) = [] := by split <;> rfl
        rw [this, List.append_nil]
        by_cases hp : p = i ∧ q = j
        · obtain ⟨rfl, rfl⟩ := hp
          rw [if_pos ⟨rfl, rfl⟩, hre]
          simp [upd]
        · rw [if_neg hp, h.chan p q]
          congr 1
          have : (p = i ∧ q < s0.k ∧ H q = false) ↔ (p = i ∧ q < s0.k ∧ upd H j true q = false) := by
            unfold upd
            by_cases e : q = j
            · simp only [e, if_true]
              constructor
              · intro h'; exact absurd ⟨h'.1, e⟩ hp
              · intro h'; cases h'.2.2
            · rw [if_neg e]
          simp only [this]
      · rw [reported_append, h.told q hq, s4, hHr]
        have : (if q = j then tolds ([] : List Out) else []) = [] := by split <;> rfl
        rw [this, List.append_nil]
  · rw [if_neg h1, List.nil_append] at hc
    by_cases h2 : i = r ∧ j < s0.k ∧ j ≠ r ∧ H r = true ∧ X j = false
    · rw [if_pos h2] at hc
      obtain ⟨rfl, _, hjr, hH, hX⟩ := h2
      obtain ⟨os, e1, e2, e3⟩ := tr j hk0.2 hjr
      obtain ⟨s1, s2, s3, s4⟩ := step_deliver hk.1 hk.2 hc (os := os) (by rw [h.ctl]; exact e1)
      refine ⟨H, upd X j true, (step_k _ _).trans h.k, s1.trans h.ctl, s2.trans h.opn, fun p q => ?_, fun _ _ => hH, fun q hq => ?_⟩
      · rw [s3, e2]
        have : (if p = j then ([] : List Msg).filter (s.goesTo j q) else []) = [] := by split <;> rfl
        rw [this, List.append_nil]
        by_cases hp : p = i ∧ q = j
        · obtain ⟨rfl, rfl⟩ := hp
          rw [if_pos ⟨rfl, rfl⟩, if_neg h1]
          simp [upd]
        · rw [if_neg hp, h.chan p q]
          congr 1
          have : (p = i ∧ q < s0.k ∧ q ≠ i ∧ H i = true ∧ X q = false) ↔ (p = i ∧ q < s0.k ∧ q ≠ i ∧ H i = true ∧ upd X j true q = false) := by
            unfold upd
            by_cases e : q = j
            · simp only [e, if_true]
              constructor
              · intro h'; exact absurd ⟨h'.1, e⟩ hp
              · intro h'; cases h'.2.2.2.2
            · rw [if_neg e]
          simp only [this]
      · rw [reported_append, h.told q hq, s4]
        by_cases e : q = j
        · subst e
          simp [hjr, hX, e3, upd]
        · simp [e, upd]
    · rw [if_neg h2] at hc
      exact quiet (.inr hc)

/-- The master has reported the error itself: how far the transmission has come. -/
structure PB (s0 : Net) (base : Nat → List Notice) (cf : Nat → Conf) (m : Nat) (F : Frame) (st : FrameStatus) (X : Nat → Bool) (s : Net) (t : List Ev) : Prop where
  k : s.k = s0.k
  ctl : s.ctl = s0.ctl
  chan : ∀ p q, s.chan p q = if p = m ∧ q < s0.k ∧ q ≠ m ∧ X q = false then [.transmission F st] else []
  told : ∀ q, q < s0.k → reported q t = base q ++ (if q = m then [] else if X q = true then (cf q).sees F st else [])

theorem PB.step {s0 : Net} {base : Nat → List Notice} {cf : Nat → Conf} {m : Nat} {F : Frame} {st : FrameStatus} {X : Nat → Bool} {s : Net} {t : List Ev}
    (tr : ∀ q, q < s0.k → q ≠ m → ∃ os, (s0.ctl q).receive m (.transmission F st) = (s0.ctl q, os) ∧ sendsOf os = [] ∧ tolds os = (cf q).sees F st)
    (h : PB s0 base cf m F st X s t) (i j : Nat) :
    ∃ X, PB s0 base cf m F st X (s.step (.deliver i j)).1 (t ++ (s.step (.deliver i j)).2) := by
  have quiet : (¬ (i < s.k ∧ j < s.k) ∨ s.chan i j = []) → ∃ X, PB s0 base cf m F st X (s.step (.deliver i j)).1 (t ++ (s.step (.deliver i j)).2) := by
    intro hq
    rw [step_deliver_none hq]
    simp only [List.append_nil]
    exact ⟨X, h⟩
  by_cases hk : i < s.k ∧ j < s.k
  rotate_left
  · exact quiet (.inl hk)
  have hk0 : i < s0.k ∧ j < s0.k := by rw [← h.k]; exact hk
  have hc := h.chan i j
  by_cases h2 : i = m ∧ j < s0.k ∧ j ≠ m ∧ X j = false
  · rw [if_pos h2] at hc
    obtain ⟨rfl, _, hjr, hX⟩ := h2
    obtain ⟨os, e1, e2, e3⟩ := tr j hk0.2 hjr
    obtain ⟨s1, s2, s3, s4⟩ := step_deliver hk.1 hk.2 hc (os := os) (by rw [h.ctl]; exact e1)
    refine ⟨upd X j true, (step_k _ _).trans h.k, s1.trans h.ctl, fun p q => ?_, fun q hq => ?_⟩
    · rw [s3, e2]
      have : (if p = j then ([] : List Msg).filter (s.goesTo j q) else []) = [] := by split <;> rfl
      rw [this, List.append_nil]
      by_cases hp : p = i ∧ q = j
      · obtain ⟨rfl, rfl⟩ := hp
        simp [upd]
      · rw [if_neg hp, h.chan p q]
        have : (p = i ∧ q < s0.k ∧ q ≠ i ∧ X q = false) ↔ (p = i ∧ q < s0.k ∧ q ≠ i ∧ upd X j true q = false) := by
          unfold upd
          by_cases e : q = j
          · simp only [e, if_true]
            constructor
            · intro h'; exact absurd ⟨h'.1, e⟩ hp
            · intro h'; cases h'.2.2.2
          · rw [if_neg e]
        simp only [this]
    · rw [reported_append, h.told q hq, s4]
      by_cases e : q = j
      · subst e
        simp [hjr, hX, e3, upd]
      · simp [e, upd]
  · rw [if_neg h2] at hc
    exact quiet (.inr hc)

/-- Deliveries keep what each of them keeps. -/
theorem deliveries_keep {P : Net → List Ev → Prop} (hs : ∀ s t i j, P s t → P (s.step (.deliver i j)).1 (t ++ (s.step (.deliver i j)).2)) {ds : List Act}
    (hd : Deliveries ds) (r : Net × List Ev) (h : P r.1 r.2) : P (ds.foldl Spec.on r).1 (ds.foldl Spec.on r).2 := by
  induction ds generalizing r with
  | nil => exact h
  | cons a t ih =>
    obtain ⟨i, j, rfl⟩ := hd a (by simp)
    rw [List.foldl_cons]
    exact ih (fun a ha => hd a (by simp [ha])) _ (hs _ _ i j h)

/-! ## Controllers that have been used -/

theorem conf_unused (i : Nat) (l : List Input) (h : ∀ a, Input.call a ∉ l) : (conf i l).mode = .inactive := by
  rw [← List.reverse_reverse l] at h ⊢
  generalize l.reverse = l at h
  induction l with
  | nil => rfl
  | cons x t ih =>
    rw [List.reverse_cons] at h ⊢
    rw [conf_append]
    cases x with
    | call a => exact absurd (by simp) (h a)
    | recv src m =>
      simp only [Conf.input]
      rw [(recv_same _ _ _ _).1]
      exact ih fun a ha => h a (List.mem_append_left _ ha)

theorem called_mem (k : Nat) (net : String) (h : List Act) (i : Nat) (a : Call) (hm : Input.call a ∈ inputs i (run k net h).2) : Act.api i a ∈ h ∧ i < k := by
  revert hm
  refine run_induction (P := fun h r => Input.call a ∈ inputs i r.2 → Act.api i a ∈ h ∧ i < k) (by simp [inputs]) (fun h x ih => ?_) h
  simp only [Spec.on, inputs_append, List.mem_append, List.mem_singleton]
  rintro (hm | hm)
  · exact ⟨.inl (ih hm).1, (ih hm).2⟩
  · rcases stepAt (run k net h).1 x i with ⟨_, h2, _⟩ | ⟨y, h0, hk, _, h2, _⟩ | ⟨src, m, t, h0, hc, hk, _, h2, _⟩
    · rw [h2] at hm; simp at hm
    · rw [h2] at hm
      simp only [List.mem_singleton, Input.call.injEq] at hm
      subst hm
      rw [run_k] at hk
      exact ⟨.inr h0.symm, hk⟩
    · rw [h2] at hm; simp at hm

theorem used_open {k : Nat} {net : String} {h : List Act} (hp : Plain h) (ho : OpenFirst k h) {i : Nat} (hi : (confAt i (run k net h).2).mode ≠ .inactive)
    {j : Nat} (hj : j < k) (hji : j ≠ i) (ty : Ty) : (run k net h).1.opn i j ty = true := by
  have ni := NI.run (net := net) hp ho
  by_cases hc : ∃ a, Input.call a ∈ inputs i (run k net h).2
  · obtain ⟨a, ha⟩ := hc
    obtain ⟨hm, hik⟩ := called_mem k net h i a ha
    obtain ⟨pre, post, e⟩ := List.append_of_mem hm
    refine ni.opened i j ty hik hj (Ne.symm hji) ?_
    have := ho pre i a post e hik j hj hji ty
    rw [e]
    simp [this]
  · exact absurd (conf_unused i _ fun a ha => hc ⟨a, ha⟩) hi

/-! ## The request and everything that follows -/

/-- The state after the request. -/
structure After (k : Nat) (net : String) (h : List Act) (m : Nat) (a : Call) (id : Nat) (s : Net) (t : List Ev) : Prop where
  ni : NI k (h ++ [.api m a]) s t
  facts : ∀ i, (s.ctl i).self = i ∧ (s.ctl i).dead = false ∧ I (s.ctl i) (confAt i t) ∧ Q (s.ctl i) (confAt i t)
  kk : s.k = k
  master : (confAt m t).mode = .master
  same : ((s.ctl m).requestHeader id).1 = s.ctl m
  chan : ∀ p q, s.chan p q = if p = m then (sendsOf ((s.ctl m).requestHeader id).2).filter (s.goesTo m q) else []
  opn : ∀ q, q < k → q ≠ m → ∀ ty, s.opn m q ty = true
  told : ∀ q, reported q t = reported q (trace k net h) ++ if q = m then firstReport a ++ tolds ((s.ctl m).requestHeader id).2 else []

theorem call_mode (f : Conf) (a : Call) (hm : f.mode ≠ .inactive) : (f.call a).mode = f.mode := by
  have hset : ∀ r : Response, (f.set r).mode = f.mode := fun r => (same_set f r).1
  cases a with
  | init mode rs => simp only [Conf.call, Conf.initWith, hm, false_and, if_false]
  | initDynamic mode => simp only [Conf.call, Conf.initWith, hm, false_and, if_false]
  | sendDynamicResponse fr => exact hset _
  | sendFrame fr ty =>
    cases ty <;> simp only [Conf.call]
    · split
      · exact hset _
      · rfl
    · split
      · exact hset _
      · rfl
  | setFrameResponse r =>
    simp only [Conf.call]
    split
    · exact hset _
    · rfl
  | updateTxBuffer fr => simp only [Conf.call]; split <;> rfl
  | goToSleep => simp only [Conf.call]; split <;> rfl
  | goToSleepInternal => simp only [Conf.call]; split <;> rfl
  | wakeup => simp only [Conf.call]; split <;> rfl
  | wakeupInternal => simp only [Conf.call]; split <;> rfl
  | _ => rfl

theorem requests_master {f : Conf} {id : Nat} {a : Call} (h : f.requests id a) : f.mode = .master := by
  cases a with
  | sendFrameHeader x => exact h.2
  | sendFrame fr ty => cases ty <;> exact h.2.1
  | _ => exact absurd h (by simp [Conf.requests])

theorem requests_valid {f : Conf} {id : Nat} {a : Call} (h : f.requests id a) (hv : a.Valid) : id < 64 := by
  cases a with
  | sendFrameHeader x => exact h.1 ▸ hv
  | sendFrame fr ty => cases ty <;> exact h.1 ▸ hv
  | _ => exact absurd h (by simp [Conf.requests])

theorem after {k : Nat} {net : String} {h : List Act} {m : Nat} {a : Call} {id : Nat} (hp : Plain (h ++ [.api m a])) (ho : OpenFirst k (h ++ [.api m a])) (hm : m < k)
    (hs : Settled k net h) (hr : (confAt m (trace k net h)).requests id a) :
    After k net h m a id (run k net (h ++ [.api m a])).1 (run k net (h ++ [.api m a])).2 := by
  have ni := NI.run (net := net) hp ho
  have ni0 := NI.run (net := net) (plain_prefix hp) (openFirst_prefix ho)
  have facts := ctl_facts ni.inOk
  obtain ⟨f1, f2, f3, f4⟩ := ctl_facts ni0.inOk m
  obtain ⟨v1, v2, v3⟩ := hp.1 m a (by simp)
  have hid := requests_valid hr v1
  obtain ⟨pre, e, p1, p2⟩ := request_eq f3 f4 (ni0.static m) hid hr
  have hk0 : m < (run k net h).1.k := by rw [run_k]; exact hm
  have ea : ((run k net h).1.ctl m).api a = ((run k net h).1.ctl m).apiAlive a := by rw [Ctl.api, if_neg (by simp [f2])]
  have es : (run k net h).1.step (.api m a) = ((run k net h).1.become m (((run k net h).1.ctl m).apiAlive a), .call m a :: (((run k net h).1.ctl m).apiAlive a).2.map (.out m)) := by
    simp only [Net.step, if_pos hk0, ea]
  have ec : (run k net (h ++ [.api m a])).1.ctl m = (((run k net h).1.ctl m).apiAlive a).1 := by
    rw [run_append]
    simp only [Spec.on, es]
    rw [become_ctl]
    simp [upd]
  have eo : (run k net (h ++ [.api m a])).1.opn = (run k net h).1.opn := by
    rw [run_append]
    simp only [Spec.on, es]
    rw [become_opn]
  refine ⟨ni, facts, run_k _ _ _, ?_, ?_, fun p q => ?_, fun q hq hqm ty => ?_, fun q => ?_⟩
  · have : confAt m (run k net (h ++ [.api m a])).2 = (confAt m (run k net h).2).call a := by
      unfold confAt
      rw [run_append]
      simp only [Spec.on, es]
      rw [inputs_append, show ∀ l : List Ev, Ev.call m a :: l = [Ev.call m a] ++ l from fun _ => rfl, inputs_append, inputs_outs]
      simp only [inputs, List.filterMap_cons, List.filterMap_nil, inputOf, if_true, List.append_nil]
      rw [conf_append]; rfl
    have hmm := requests_master hr
    rw [this, call_mode _ _ (by rw [show (run k net h).2 = trace k net h from rfl, hmm]; simp)]
    exact hmm
  · exact requestHeader_alive hid (facts m).2.2.1.ok
  · rw [ec]
    have eg : ∀ x, (run k net (h ++ [.api m a])).1.goesTo m q x = (run k net h).1.goesTo m q x := by
      intro x
      simp only [Net.goesTo, eo, run_k]
    rw [show (run k net (h ++ [.api m a])).1.goesTo m q = (run k net h).1.goesTo m q from funext eg]
    have : sendsOf (((run k net h).1.ctl m).apiAlive a).2 = sendsOf ((((run k net h).1.ctl m).apiAlive a).1.requestHeader id).2 := by
      have := congrArg (fun r : R => sendsOf r.2) e
      simp only [sendsOf_append, p2, List.nil_append] at this
      exact this
    rw [← this, run_append]
    simp only [Spec.on, es]
    rw [become_chan, hs p q, List.nil_append]
  · rw [eo]
    exact ni0.opened m q ty hm hq (Ne.symm hqm) (ho h m a [] rfl hm q hq hqm ty)
  · rw [ec]
    have : tolds (((run k net h).1.ctl m).apiAlive a).2 = firstReport a ++ tolds ((((run k net h).1.ctl m).apiAlive a).1.requestHeader id).2 := by
      have := congrArg (fun r : R => tolds r.2) e
      simp only [Handling.tolds_append, p1] at this
      exact this
    rw [← this, run_append]
    simp only [Spec.on, es, trace]
    rw [reported_append]
    congr 1
    unfold reported
    rw [show ∀ l : List Ev, Ev.call m a :: l = [Ev.call m a] ++ l from fun _ => rfl, outs_append, outs_outs]
    simp only [outs, List.filterMap_cons, List.filterMap_nil, outOf, List.nil_append]
    by_cases h : m = q
    · simp [h]
    · rw [if_neg h, if_neg (Ne.symm h)]; rfl

end SilKit.Lin
