import Verif.Spec.Flexray
import Verif.Lemmas.Handling
namespace SilKit.Flexray
open Spec Handling.Spec

theorem firstError_none (l : List (Bool × String)) : firstError l = none ↔ ∀ x ∈ l, x.1 = false := by
  induction l with
  | nil => simp [firstError]
  | cons x t ih =>
    obtain ⟨b, m⟩ := x
    unfold firstError
    cases b <;> simp [ih]

theorem cluster_iff (p : Cluster) : p.validate = none ↔ ClusterInRange p := by
  unfold Cluster.validate
  rw [firstError_none]
  simp only [List.forall_mem_cons, List.not_mem_nil, false_implies, implies_true, and_true, Bool.or_eq_false_iff, decide_eq_false_iff_not, bne_eq_false_iff_eq, Nat.not_lt, gt_iff_lt]
  constructor
  · rintro ⟨h1, h2, h3, h4, h5, h6, h7, h8, h9, h10, h11, h12, h13, h14, h15, h16, h17, h18, h19, h20, h21⟩
    exact ⟨h1, ⟨h3.1, h3.2, h2⟩, h4, h5, h6, h7, h8, h9, h10, h11, h12, h13, h14, h15, h16, h17, h18, h19, h20, h21⟩
  · rintro ⟨h1, h2, h4, h5, h6, h7, h8, h9, h10, h11, h12, h13, h14, h15, h16, h17, h18, h19, h20, h21⟩
    exact ⟨h1, h2.2.2, ⟨h2.1, h2.2.1⟩, h4, h5, h6, h7, h8, h9, h10, h11, h12, h13, h14, h15, h16, h17, h18, h19, h20, h21⟩

theorem node_iff (p : Node) : p.validate = none ↔ NodeInRange p := by
  unfold Node.validate
  rw [firstError_none]
  simp only [List.forall_mem_cons, List.not_mem_nil, false_implies, implies_true, and_true, Bool.or_eq_false_iff, decide_eq_false_iff_not, Nat.not_lt, Int.not_lt, gt_iff_lt]
  constructor
  · rintro ⟨h1, h2, h3, h4, h5, h6, h7, h8, h9, h10, h11, h12, h13, h14, h15, h16, h17, h18, h19, h20, h21⟩
    refine ⟨h1, h2, h3, h4, h5, h6, h7, h8, h9, h10, h11, h12, h13, h14, h15, h16, h17, h18, ?_, h20, ?_⟩
    · simp only [Bool.and_eq_false_iff, bne_eq_false_iff_eq] at h19; exact h19
    · omega
  · rintro ⟨h1, h2, h3, h4, h5, h6, h7, h8, h9, h10, h11, h12, h13, h14, h15, h16, h17, h18, h19, h20, h21⟩
    refine ⟨h1, h2, h3, h4, h5, h6, h7, h8, h9, h10, h11, h12, h13, h14, h15, h16, h17, h18, ?_, h20, ?_⟩
    · simp only [Bool.and_eq_false_iff, bne_eq_false_iff_eq]; exact h19
    · omega

theorem effective_eq (c : Ctl) (cfg : Config) : c.effective cfg = wanted c.preset cfg := by
  unfold Ctl.effective wanted
  obtain ⟨self, net, ⟨pc, pn, pb⟩, _, _, _⟩ := c
  cases pc <;> cases pn <;> cases pb <;> simp

theorem solo_append (i : Nat) (net : String) (pre : Preset) (h : List Input) (x : Input) : solo i net pre (h ++ [x]) = onInput (solo i net pre h) x := by simp [solo]

theorem bufferCount_append (a b : List Out) :
    bufferCount (a ++ b) = (dids b).foldl countStep (bufferCount a) := by
  unfold bufferCount
  rw [Handling.dids_append, List.foldl_append]

theorem configure_cases (c : Ctl) (cfg : Config) :
    (∃ msg, c.configure cfg = (c, [.did (.invalid msg)]) ∧ ¬ (ClusterInRange (wanted c.preset cfg).cluster ∧ NodeInRange (wanted c.preset cfg).node)) ∨
    (c.configure cfg = ({ c with buffers := (wanted c.preset cfg).buffers }, [.did (.send c.sim (.config (wanted c.preset cfg)))]) ∧
      ClusterInRange (wanted c.preset cfg).cluster ∧ NodeInRange (wanted c.preset cfg).node) := by
  unfold Ctl.configure
  rw [effective_eq, ← cluster_iff, ← node_iff]
  split
  · rename_i msg e
    exact .inl ⟨msg, rfl, by simp [e]⟩
  · rename_i e
    split
    · rename_i msg e'
      exact .inl ⟨msg, rfl, by simp [e']⟩
    · rename_i e'
      exact .inr ⟨rfl, e, e'⟩

theorem tolds_take (c : Ctl) (m : SimMsg) : tolds (c.take m) = reports m := by
  cases m <;> simp only [Ctl.take, reports, Ctl.tell, Handling.tolds_tell]
  rename_i s
  unfold Ctl.onSymbol
  rw [Handling.tolds_append]
  simp only [Ctl.tell, Handling.tolds_tell]
  cases h : s.pattern <;> simp only [Handling.tolds_tell] <;> simp [tolds]

theorem dids_take (c : Ctl) (m : SimMsg) : dids (c.take m) = [] := by
  cases m <;> simp only [Ctl.take, Ctl.tell, Handling.dids_tell]
  rename_i s
  unfold Ctl.onSymbol
  rw [Handling.dids_append]
  simp only [Ctl.tell, Handling.dids_tell]
  cases h : s.pattern <;> simp only [Handling.dids_tell] <;> rfl

theorem H.take {c : Ctl} {t : List Out} (h : Handling.H events c.handlers t) (m : SimMsg) : Handling.H events c.handlers (t ++ c.take m) := by
  cases m <;> simp only [Ctl.take] <;> try exact h.tell _
  rename_i s
  unfold Ctl.onSymbol
  rw [← List.append_assoc]
  refine Handling.H.tell ?_ _
  cases hp : s.pattern <;> simp only [List.append_nil] <;> first | exact h | exact h.tell _

/-- What is true of a controller with its history. -/
structure G (i : Nat) (net : String) (pre : Preset) (h : List Input) (r : R) : Prop where
  self : r.1.self = i
  network : r.1.net = net
  pre : r.1.preset = pre
  count : r.1.buffers.length = bufferCount r.2
  sim : r.1.sim = simulator net h
  hnd : Handling.H events r.1.handlers r.2

theorem simulator_append (net : String) (h : List Input) (x : Input) :
    simulator net (h ++ [x]) = match simulator net h with
      | some q => some q
      | none => match x with | .linkCreated q n => if n = net then some q else none | _ => none := by
  unfold simulator
  rw [List.findSome?_append]
  cases h.findSome? _ with
  | some q => rfl
  | none =>
    cases x <;> simp [List.findSome?]
    split <;> simp_all

theorem sim_same (net : String) (h : List Input) (x : Input) (hx : ∀ q n, x ≠ .linkCreated q n) : simulator net (h ++ [x]) = simulator net h := by
  rw [simulator_append]
  cases hs : simulator net h with
  | some q => rfl
  | none => cases x <;> simp_all

theorem G.step {i : Nat} {net : String} {pre : Preset} {h : List Input} {r : R} (g : G i net pre h r) (x : Input) : G i net pre (h ++ [x]) (onInput r x) := by
  obtain ⟨h1, h2, h3, h4, h5, h6⟩ := g
  -- a step that only outputs some `did`
  have key : ∀ (bs : List Buffer) (d : Did), bs.length = bufferCount (r.2 ++ [.did d]) → r.1.step x = ({ r.1 with buffers := bs }, [.did d]) → (∀ q n, x ≠ .linkCreated q n) →
      G i net pre (h ++ [x]) (onInput r x) := by
    intro bs d hb e hx
    unfold onInput
    rw [e]
    exact ⟨h1, h2, h3, hb, by rw [sim_same _ _ _ hx]; exact h5, h6.did [d]⟩
  have same : r.1.step x = (r.1, []) → simulator net (h ++ [x]) = simulator net h → G i net pre (h ++ [x]) (onInput r x) := by
    intro e hx
    unfold onInput
    rw [e]
    exact ⟨h1, h2, h3, by simpa using h4, by rw [hx]; exact h5, by simpa using h6⟩
  cases x with
  | configure cfg =>
    rcases configure_cases r.1 cfg with ⟨msg, e, _⟩ | ⟨e, _⟩
    · exact key r.1.buffers (.invalid msg) (by rw [bufferCount_append]; simpa [dids, countStep] using h4) e (by simp)
    · exact key _ _ (by rw [bufferCount_append]; simp [dids, countStep]) e (by simp)
  | reconfigureTxBuffer idx b =>
    by_cases hi : idx ≥ r.1.buffers.length
    · exact key r.1.buffers .outOfRange (by rw [bufferCount_append]; simpa [dids, countStep] using h4) (by simp only [Ctl.step, Ctl.reconfigureTxBuffer]; rw [if_pos hi]) (by simp)
    · by_cases hp : r.1.preset.buffers ≠ []
      · exact same (by simp only [Ctl.step, Ctl.reconfigureTxBuffer]; rw [if_neg hi, if_pos hp]) (sim_same _ _ _ (by simp))
      · exact key r.1.buffers (.send r.1.sim (.bufferConfig idx b)) (by rw [bufferCount_append]; simpa [dids, countStep] using h4)
          (by simp only [Ctl.step, Ctl.reconfigureTxBuffer]; rw [if_neg hi, if_neg hp]; rfl) (by simp)
  | updateTxBuffer idx v p =>
    by_cases hi : idx ≥ r.1.buffers.length
    · exact key r.1.buffers .outOfRange (by rw [bufferCount_append]; simpa [dids, countStep] using h4) (by simp only [Ctl.step, Ctl.updateTxBuffer]; rw [if_pos hi]) (by simp)
    · exact key r.1.buffers (.send r.1.sim (.bufferUpdate idx v p)) (by rw [bufferCount_append]; simpa [dids, countStep] using h4)
        (by simp only [Ctl.step, Ctl.updateTxBuffer]; rw [if_neg hi]; rfl) (by simp)
  | command y => exact key r.1.buffers (.send r.1.sim (.command y)) (by rw [bufferCount_append]; simpa [dids, countStep] using h4) rfl (by simp)
  | addHandler k =>
    exact ⟨h1, h2, h3, by simp only [onInput, Ctl.step]; rw [bufferCount_append]; simpa [dids, Handling.add] using h4, by rw [sim_same _ _ _ (by simp)]; exact h5, h6.add k 0⟩
  | removeHandler k id =>
    exact ⟨h1, h2, h3, by simp only [onInput, Ctl.step]; rw [bufferCount_append]; simpa [dids, Handling.remove] using h4, by rw [sim_same _ _ _ (by simp)]; exact h5, h6.remove k id⟩
  | linkCreated q n =>
    by_cases hc : r.1.sim = none ∧ n = r.1.net
    · have e : r.1.step (.linkCreated q n) = ({ r.1 with sim := some q }, []) := by simp only [Ctl.step]; rw [if_pos hc]
      unfold onInput
      rw [e]
      refine ⟨h1, h2, h3, by simpa using h4, ?_, by simpa using h6⟩
      rw [simulator_append, ← h5, hc.1]
      simp [hc.2, h2]
    · refine same (by simp only [Ctl.step]; rw [if_neg hc]) ?_
      rw [simulator_append, ← h5]
      cases hs : r.1.sim with
      | some _ => rfl
      | none =>
        have : ¬ n = net := fun e => hc ⟨hs, by rw [h2]; exact e⟩
        simp [this]
  | linkRemoved q n => exact same rfl (sim_same _ _ _ (by simp))
  | recv q id m =>
    by_cases ha : r.1.allowReception q id = true
    · have e : r.1.step (.recv q id m) = (r.1, r.1.take m) := by simp only [Ctl.step]; rw [if_pos ha]
      unfold onInput
      rw [e]
      exact ⟨h1, h2, h3, by rw [bufferCount_append, dids_take]; exact h4, by rw [sim_same _ _ _ (by simp)]; exact h5, H.take h6 m⟩
    · exact same (by simp only [Ctl.step]; rw [if_neg ha]) (sim_same _ _ _ (by simp))

theorem solo_G (i : Nat) (net : String) (pre : Preset) (h : List Input) : G i net pre h (solo i net pre h) := by
  rw [← List.reverse_reverse h]
  induction h.reverse with
  | nil => exact ⟨rfl, rfl, rfl, rfl, rfl, Handling.H.nil⟩
  | cons x t ih =>
    rw [List.reverse_cons, solo_append]
    exact ih.step x

theorem tolds_step (c : Ctl) (x : Input) :
    tolds (c.step x).2 = match x with | .recv q id m => if c.sim = some q ∧ id = c.self then reports m else [] | _ => [] := by
  cases x with
  | configure cfg => rcases configure_cases c cfg with ⟨msg, e, _⟩ | ⟨e, _⟩ <;> simp [Ctl.step, e, tolds]
  | reconfigureTxBuffer idx b =>
    simp only [Ctl.step, Ctl.reconfigureTxBuffer]
    split
    · rfl
    · split <;> rfl
  | updateTxBuffer idx v p =>
    simp only [Ctl.step, Ctl.updateTxBuffer]
    split <;> rfl
  | command y => rfl
  | addHandler k => simp [Ctl.step, tolds, Handling.add]
  | removeHandler k id => simp [Ctl.step, tolds, Handling.remove]
  | linkCreated q n => simp only [Ctl.step]; split <;> rfl
  | linkRemoved q n => rfl
  | recv q id m =>
    simp only [Ctl.step, Ctl.allowReception, Bool.and_eq_true, beq_iff_eq]
    by_cases h : c.sim = some q ∧ id = c.self
    · rw [if_pos h, if_pos h, tolds_take]
    · rw [if_neg h, if_neg h]; rfl

theorem reportedFrom_append (i : Nat) (net : String) (s : Option Nat) (h : List Input) (x : Input) :
    reportedFrom i net s (h ++ [x]) = reportedFrom i net s h ++
      reportedFrom i net (match s with | some q => some q | none => simulator net h) [x] := by
  induction h generalizing s with
  | nil => cases s <;> simp [reportedFrom, simulator]
  | cons y t ih =>
    cases s with
    | some q => cases y <;> simp [reportedFrom, ih]
    | none =>
      cases y <;> simp [reportedFrom, ih, simulator, List.findSome?]
      rename_i q n
      by_cases hn : n = net <;> simp [hn, simulator]

theorem tolds_solo (i : Nat) (net : String) (pre : Preset) (h : List Input) : tolds (solo i net pre h).2 = reportedFrom i net none h := by
  rw [← List.reverse_reverse h]
  induction h.reverse with
  | nil => rfl
  | cons x t ih =>
    rw [List.reverse_cons, solo_append, reportedFrom_append, ← ih]
    have g := solo_G i net pre t.reverse
    generalize solo i net pre t.reverse = r at g ih
    simp only [onInput]
    rw [Handling.tolds_append, tolds_step, g.sim, g.self]
    congr 1
    cases hs : simulator net t.reverse with
    | none => cases x <;> simp [reportedFrom]
    | some q =>
      cases x <;> simp [reportedFrom]
      rename_i q' id m
      by_cases hq : q = q'
      · subst hq; simp
      · simp [hq, Ne.symm hq]

end SilKit.Flexray
