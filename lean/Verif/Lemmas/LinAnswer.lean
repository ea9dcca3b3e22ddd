import Verif.Lemmas.LinPhase
/-!
# LIN networks: the answers to requested frames
-/
namespace SilKit.Lin
open SilKit.Lin.Spec SilKit.Handling.Spec

theorem getNode_ok {l : List (Nat × Node)} (h : ∀ x ∈ l, x.2.Ok) (a : Nat) : (getNode a l).Ok := by
  induction l with
  | nil => exact Node.Ok.default
  | cons x t ih =>
    obtain ⟨b, n⟩ := x
    simp only [getNode]
    split
    · exact h _ List.mem_cons_self
    · exact ih fun x hx => h x (List.mem_cons_of_mem _ hx)

theorem resp_id {c : Ctl} {f : Conf} (h : I c f) {id : Nat} (ht : (f.resp id).mode = .tx) : (f.resp id).frame.id = id := by
  have := getNode_ok h.ok c.self id
  rw [show getNode c.self c.nodes = c.own from rfl, h.ownResp] at this
  exact this (by rw [ht]; simp)

/-- How a controller takes a transmission. -/
theorem receive_transmission {c : Ctl} {f : Conf} (h : I c f) (q : Q c f) (hd : c.dead = false) (hdy : f.isDynamic = false) {src : Nat} (hsrc : src ≠ c.self) {fr : Frame} (hid : fr.id < 64)
    {s : FrameStatus} (hs : s ≠ .notOk) : ∃ os, c.receive src (.transmission fr s) = (c, os) ∧ sendsOf os = [] ∧ tolds os = f.sees fr s := by
  have e : c.receive src (.transmission fr s) = c.onTransmission fr s := by
    rw [receive_eq hd q.sim (fun e => absurd e hsrc)]; rfl
  refine ⟨(c.onTransmission fr s).2, ?_, sends_onTransmission _ _ _, tolds_onTransmission h q hdy hid hs⟩
  rw [e]
  exact Prod.ext (onTransmission_same (by rw [q.st]; exact Conf.status_sp _) fr s) rfl

theorem receive_header {c : Ctl} {f : Conf} (h : I c f) (q : Q c f) (hd : c.dead = false) (hdy : f.isDynamic = false) (src : Nat) (id : Nat) :
    c.receive src (.header id) = c.processHeader id := by
  rw [receive_eq hd q.sim (fun _ => ⟨id, rfl⟩)]
  simp only [Ctl.take, Ctl.onHeader, h.dyn, hdy, Bool.false_eq_true, if_false]

theorem header_other {c : Ctl} {f : Conf} (h : I c f) (q : Q c f) (hd : c.dead = false) (hdy : f.isDynamic = false) (src : Nat) {id : Nat} (hid : id < 64)
    (ht : (f.resp id).mode ≠ .tx) : c.receive src (.header id) = (c, []) := by
  rw [receive_header h q hd hdy]
  simp only [Ctl.processHeader, q.sim]
  rw [if_neg (Nat.not_le.2 hid), if_pos (by rw [h.ownResp]; exact ht)]

theorem header_responder {c : Ctl} {f : Conf} (h : I c f) (q : Q c f) (hd : c.dead = false) (hdy : f.isDynamic = false) (src : Nat) {id : Nat} (hid : id < 64)
    (ht : (f.resp id).mode = .tx) (hl : (f.resp id).frame.dataLength ≠ lengthUnknown) :
    ∃ os, c.receive src (.header id) = (c, os) ∧ sendsOf os = [.transmission (f.resp id).frame .rxOk] ∧ tolds os = [.frame (f.resp id).frame .txOk] := by
  rw [receive_header h q hd hdy]
  simp only [Ctl.processHeader, q.sim]
  rw [if_neg (Nat.not_le.2 hid), if_neg (by rw [h.ownResp, ht]; simp), if_neg (by rw [h.ownResp]; exact hl), h.ownResp]
  refine ⟨_, rfl, (sendsOf_append _ _).trans ?_, (Handling.tolds_append _ _).trans ?_⟩
  · show sendsOf (c.send _).2 ++ sendsOf (c.tell _).2 = _
    rw [sends_send, sends_tell]; rfl
  · show tolds (c.send _).2 ++ tolds (c.tell _).2 = _
    rw [tolds_tell']
    show [Notice.frame (c.own.resp id).frame .txOk] = _
    rw [h.ownResp]

theorem sendError_eq (c : Ctl) (n : Nat) {f : Frame} (h : f.id < 64) :
    c.sendError n f = (c, (c.send (.transmission f (errorStatus n))).2 ++ (c.tell (.frame f (c.masterStatus f.id (errorStatus n)))).2) := by
  unfold Ctl.sendError R.andThen
  simp only
  rw [if_neg (Nat.not_le.2 h)]
  rfl

section
variable {k : Nat} {net : String} {h : List Act} {m : Nat} {a : Call} {id : Nat} {ds : List Act}

/-- Exactly one node responds. -/
theorem answered_one (hp : Plain (h ++ [.api m a])) (ho : OpenFirst k (h ++ [.api m a])) (hm : m < k) (hs : Settled k net h)
    (hr : (confAt m (trace k net h)).requests id a) (hds : Deliveries ds) (hend : Settled k net (h ++ [.api m a] ++ ds))
    (hone : ∀ i, i < k → i ≠ m → (confAt i (trace k net (h ++ [.api m a]))).mode ≠ .master)
    (haw : ∀ i ∈ responders k (trace k net (h ++ [.api m a])) id, i ≠ m → (confAt i (trace k net (h ++ [.api m a]))).asleep = false)
    {r : Nat} (hres : responders k (trace k net (h ++ [.api m a])) id = [r])
    (hlen : ((confAt r (trace k net (h ++ [.api m a]))).resp id).frame.dataLength ≠ lengthUnknown) {i : Nat} (hi : i < k) :
    reported i (trace k net (h ++ [.api m a] ++ ds)) = reported i (trace k net h) ++ (if i = m then firstReport a else []) ++
      (if i = r then [.frame ((confAt r (trace k net (h ++ [.api m a]))).resp id).frame .txOk]
       else (confAt i (trace k net (h ++ [.api m a]))).sees ((confAt r (trace k net (h ++ [.api m a]))).resp id).frame .rxOk) := by
  have A := after hp ho hm hs hr
  have used := fun i hi j hj hji => used_open (net := net) hp ho (i := i) hi (j := j) hj hji .transmission
  have hid := requests_valid hr (hp.1 m a (by simp)).1
  unfold trace at hone haw hres hlen ⊢
  unfold Settled at hend
  rw [run_append_list k net (h ++ [Act.api m a]) ds] at hend ⊢
  generalize run k net (h ++ [Act.api m a]) = r1 at A used hone haw hres hlen hend ⊢
  obtain ⟨s1, t1⟩ := r1
  simp only at A used hone haw hres hlen hend ⊢
  have hq : ∀ i, i < k → i ≠ m → s1.chan i m = [] := fun i _ e => by rw [A.chan, if_neg e]
  have hcount := counted A.ni A.facts (id := id) hm hq A.master hone haw
  have hrm : r ∈ responders k t1 id := by rw [hres]; simp
  have hrk : r < k ∧ ((confAt r t1).resp id).mode = .tx := by simpa [responders] using hrm
  have hother : ∀ q, q < k → q ≠ r → ((confAt q t1).resp id).mode ≠ .tx := by
    intro q hq hqr ht
    have : q ∈ responders k t1 id := by simp [responders, hq, ht]
    rw [hres] at this
    simp at this
    exact hqr this
  have hmode : ∀ q, ((confAt q t1).resp id).mode = .tx → (confAt q t1).mode ≠ .inactive := by
    intro q ht hi
    have := A.ni.idle q hi id
    rw [ht] at this
    cases this
  obtain ⟨fr1, fr2, fr3, fr4⟩ := A.facts r
  have hFid := resp_id fr3 hrk.2
  have hn : ((s1.ctl m).getResponse id).1 = 1 := by
    rw [getResponse_count, ← List.length_map (f := fun x : Nat × Node => x.1), hcount, hres]
    rfl
  have hreq : (s1.ctl m).requestHeader id = (s1.ctl m).send (.header id) := by
    simp only [Ctl.requestHeader, (A.facts m).2.2.2.sim]
    rw [if_neg (fun h => Nat.not_le.2 hid h.1), if_pos (.inl hn)]
  have hchan : ∀ p q, s1.chan p q = if p = m ∧ q < k then [.header id] else [] := by
    intro p q
    rw [A.chan, hreq, sends_send]
    by_cases hpm : p = m
    · rw [if_pos hpm]
      have : s1.goesTo m q (.header id) = decide (q < k) := by
        simp only [Net.goesTo, A.kk]
        by_cases hqk : q < k
        · by_cases hqm : q = m
          · simp [hqm, Msg.selfDelivered]
          · rw [if_neg hqm, A.opn q hqk hqm]; simp
        · simp [hqk]
      by_cases hqk : q < k <;> simp [this, hqk, hpm]
    · simp [hpm]
  have init : ∃ H X, PA s1 (fun q => reported q t1) (fun q => confAt q t1) m r id ((confAt r t1).resp id).frame H X s1 t1 := by
    refine ⟨fun _ => false, fun _ => false, rfl, rfl, rfl, fun p q => ?_, fun _ h => by simp at h, fun q _ => ?_⟩
    · rw [hchan, A.kk]; simp
    · simp
  have fin := deliveries_keep (P := fun s t => ∃ H X, PA s1 (fun q => reported q t1) (fun q => confAt q t1) m r id ((confAt r t1).resp id).frame H X s t)
    (fun s t i j hPA => by
      obtain ⟨H, X, hPA⟩ := hPA
      refine PA.step (by rw [A.kk]; exact hm) (by rw [A.kk]; exact hrk.1) (fun q hqk hqr => ?_) ?_ (fun q hqk hqr => ?_) (fun q hqk hqr => ?_) hPA i j
      · obtain ⟨g1, g2, g3, g4⟩ := A.facts q
        exact header_other g3 g4 g2 (A.ni.static q) m hid (hother q (A.kk ▸ hqk) hqr)
      · exact header_responder fr3 fr4 fr2 (A.ni.static r) m hid hrk.2 hlen
      · obtain ⟨g1, g2, g3, g4⟩ := A.facts q
        exact receive_transmission g3 g4 g2 (A.ni.static q) (by rw [g1]; exact Ne.symm hqr) (by rw [hFid]; exact hid) (by simp)
      · exact used r (hmode r hrk.2) q (A.kk ▸ hqk) hqr) hds (s1, t1) init
  obtain ⟨H, X, fin⟩ := fin
  have hH : ∀ q, q < k → H q = true := by
    intro q hqk
    cases hh : H q with
    | true => rfl
    | false =>
      have := fin.chan m q
      rw [hend m q, if_pos ⟨rfl, by rw [A.kk]; exact hqk, hh⟩] at this
      simp at this
  have hX : ∀ q, q < k → q ≠ r → X q = true := by
    intro q hqk hqr
    cases hx : X q with
    | true => rfl
    | false =>
      have := fin.chan r q
      rw [hend r q, if_pos (c := r = r ∧ _) ⟨rfl, by rw [A.kk]; exact hqk, hqr, hH r hrk.1, hx⟩] at this
      simp at this
  rw [fin.told i (by rw [A.kk]; exact hi), A.told i, hreq]
  have : tolds ((s1.ctl m).send (.header id)).2 = [] := rfl
  rw [this, List.append_nil]
  congr 1
  by_cases hir : i = r
  · rw [if_pos hir, if_pos hir, if_pos (hH r hrk.1)]
  · rw [if_neg hir, if_neg hir, if_pos (hX i hi hir)]

/-- No or several nodes respond. -/
theorem answered_error (hp : Plain (h ++ [.api m a])) (ho : OpenFirst k (h ++ [.api m a])) (hm : m < k) (hs : Settled k net h)
    (hr : (confAt m (trace k net h)).requests id a) (hds : Deliveries ds) (hend : Settled k net (h ++ [.api m a] ++ ds))
    (hone : ∀ i, i < k → i ≠ m → (confAt i (trace k net (h ++ [.api m a]))).mode ≠ .master)
    (haw : ∀ i ∈ responders k (trace k net (h ++ [.api m a])) id, i ≠ m → (confAt i (trace k net (h ++ [.api m a]))).asleep = false)
    (hres : (responders k (trace k net (h ++ [.api m a])) id).length ≠ 1) :
    ∃ F : Frame, F.id = id ∧
      (responders k (trace k net (h ++ [.api m a])) id = [] ∧ F = { id := id } ∨
       ∃ r ∈ responders k (trace k net (h ++ [.api m a])) id, F.dataLength = ((confAt r (trace k net (h ++ [.api m a]))).resp id).frame.dataLength ∧
         F.checksum = ((confAt r (trace k net (h ++ [.api m a]))).resp id).frame.checksum) ∧
      ∀ i, i < k → reported i (trace k net (h ++ [.api m a] ++ ds)) = reported i (trace k net h) ++ (if i = m then firstReport a else []) ++
        (if i = m then [.frame F (if m ∈ responders k (trace k net (h ++ [.api m a])) id then .txError
            else if responders k (trace k net (h ++ [.api m a])) id = [] then .rxNoResponse else .rxError)]
         else (confAt i (trace k net (h ++ [.api m a]))).sees F (if responders k (trace k net (h ++ [.api m a])) id = [] then .rxNoResponse else .rxError)) := by
  have A := after hp ho hm hs hr
  have hid := requests_valid hr (hp.1 m a (by simp)).1
  unfold trace at hone haw hres ⊢
  unfold Settled at hend
  rw [run_append_list k net (h ++ [Act.api m a]) ds] at hend ⊢
  generalize run k net (h ++ [Act.api m a]) = r1 at A hone haw hres hend ⊢
  obtain ⟨s1, t1⟩ := r1
  simp only at A hone haw hres hend ⊢
  have hq : ∀ i, i < k → i ≠ m → s1.chan i m = [] := fun i _ e => by rw [A.chan, if_neg e]
  have hcount := counted A.ni A.facts (id := id) hm hq A.master hone haw
  have hdn := noDynamic A.ni A.facts hm hq
  have hlen : ((s1.ctl m).getResponse id).1 = (responders k t1 id).length := by
    rw [getResponse_count, ← List.length_map (f := fun x : Nat × Node => x.1), hcount]
  have hFid : ((s1.ctl m).getResponse id).2.id = id := getResponse_id _ _ (A.facts m).2.2.1.ok
  have hst : errorStatus ((s1.ctl m).getResponse id).1 = if responders k t1 id = [] then .rxNoResponse else .rxError := by
    rw [hlen, errorStatus]
    simp only [List.length_eq_zero_iff]
  have hreq : (s1.ctl m).requestHeader id = (s1.ctl m).sendError ((s1.ctl m).getResponse id).1 ((s1.ctl m).getResponse id).2 := by
    simp only [Ctl.requestHeader, (A.facts m).2.2.2.sim]
    rw [if_neg (fun h => Nat.not_le.2 hid h.1), if_neg (by rw [hlen, hdn]; simp [hres])]
  have hsend : sendsOf ((s1.ctl m).requestHeader id).2 = [.transmission ((s1.ctl m).getResponse id).2 (if responders k t1 id = [] then .rxNoResponse else .rxError)] := by
    rw [hreq, sendError_eq _ _ (by rw [hFid]; exact hid), sendsOf_append, sends_send, hst, sends_tell]
    rfl
  have htold : tolds ((s1.ctl m).requestHeader id).2 = [.frame ((s1.ctl m).getResponse id).2 (if m ∈ responders k t1 id then .txError
            else if responders k t1 id = [] then .rxNoResponse else .rxError)] := by
    rw [hreq, sendError_eq _ _ (by rw [hFid]; exact hid), Handling.tolds_append, tolds_tell', hst]
    show [Notice.frame _ (Ctl.masterStatus (s1.ctl m) _ _)] = _
    rw [Ctl.masterStatus, hFid, (A.facts m).2.2.1.ownResp]
    have : m ∈ responders k t1 id ↔ ((confAt m t1).resp id).mode = .tx := by simp [responders, hm]
    simp only [this]
  generalize hFF : ((s1.ctl m).getResponse id).2 = F at hFid hsend htold
  refine ⟨F, hFid, ?_, fun i hi => ?_⟩
  · rcases getResponse_frame (s1.ctl m) id with ⟨e, hf⟩ | ⟨x, hx, hrx, e⟩
    · left
      rw [hf] at hcount
      exact ⟨hcount.symm, hFF ▸ e⟩
    · right
      obtain ⟨hxk, al⟩ := counted_frame A.ni A.facts (id := id) hm hq hone hx
      refine ⟨x.1, ?_, ?_⟩
      · rw [← hcount, List.mem_map]
        exact ⟨x, List.mem_filter.2 ⟨hx, hrx⟩, rfl⟩
      · rw [← hFF, e]
        exact ⟨al.2.2.2, al.2.2.1⟩
  · have hgo : ∀ q, s1.goesTo m q (.transmission F (if responders k t1 id = [] then .rxNoResponse else .rxError)) = decide (q < k ∧ q ≠ m) := by
      intro q
      simp only [Net.goesTo, A.kk]
      by_cases hqk : q < k
      · by_cases hqm : q = m
        · simp [hqm, Msg.selfDelivered]
        · rw [if_neg hqm, A.opn q hqk hqm]; simp [hqk, hqm]
      · simp [hqk]
    have init : ∃ X, PB s1 (fun q => reported q t1) (fun q => confAt q t1) m F (if responders k t1 id = [] then .rxNoResponse else .rxError) X s1 t1 := by
      refine ⟨fun _ => false, rfl, rfl, fun p q => ?_, fun q _ => ?_⟩
      · rw [A.chan, hsend, A.kk]
        by_cases hpm : p = m
        · by_cases hqk : q < k ∧ q ≠ m <;> simp [hgo, hpm, hqk]
        · simp [hpm]
      · simp
    have fin := deliveries_keep (P := fun s t => ∃ X, PB s1 (fun q => reported q t1) (fun q => confAt q t1) m F (if responders k t1 id = [] then .rxNoResponse else .rxError) X s t)
      (fun s t i j hPB => by
        obtain ⟨X, hPB⟩ := hPB
        refine PB.step (fun q hqk hqr => ?_) hPB i j
        obtain ⟨g1, g2, g3, g4⟩ := A.facts q
        exact receive_transmission g3 g4 g2 (A.ni.static q) (by rw [g1]; exact Ne.symm hqr) (by rw [hFid]; exact hid) (by split <;> simp)) hds (s1, t1) init
    obtain ⟨X, fin⟩ := fin
    have hX : ∀ q, q < k → q ≠ m → X q = true := by
      intro q hqk hqr
      cases hx : X q with
      | true => rfl
      | false =>
        have := fin.chan m q
        rw [hend m q, if_pos (c := m = m ∧ _) ⟨rfl, by rw [A.kk]; exact hqk, hqr, hx⟩] at this
        simp at this
    rw [fin.told i (by rw [A.kk]; exact hi), A.told i, htold]
    by_cases him : i = m
    · simp [him, trace]
    · simp [him, hX i hi him, trace]

end

end SilKit.Lin
