import Verif.Spec.DiscoveryStore
import Verif.Lemmas.Labels
/-!
# The index of the discovery store represents the services alive and the listeners
-/
namespace SilKit.Discovery
open Labels Spec

/-- The first label with key `k` has value `v`. -/
def has (k v : String) (ls : List Label) : Bool := (tryFind k ls).any (fun l => l.value == v)

/-- The entry represents the services `A` and the listeners `H`. -/
structure Entry.Rep (e : Entry) (A : List Service) (H : List Info) : Prop where
  allNodes : e.all.nodes = A
  allInfos : e.all.infos = H
  noNodes : e.noLabel.nodes = A.filter (fun s => s.labelsOf.isEmpty)
  noInfos : e.noLabel.infos = H.filter (fun i => i.labels.isEmpty)
  lblNodes : ∀ k v, (e.labelMap k v).nodes = A.filter (fun s => has k v s.labelsOf)
  lblInfos : ∀ k v, (e.labelMap k v).infos = H.filter (fun i => has k v i.labels)
  notNodes : ∀ k c, e.notLabelMap k = some c → ∀ s ∈ c.nodes, s ∈ A
  notInfos : ∀ k c, e.notLabelMap k = some c → ∀ i ∈ c.infos, i ∈ H

theorem rep_init : Entry.Rep {} [] [] :=
  ⟨rfl, rfl, rfl, rfl, fun _ _ => rfl, fun _ _ => rfl, fun _ _ h => by simp at h, fun _ _ h => by simp at h⟩

theorem rep_touch {e : Entry} {A H} (h : e.Rep A H) (k : String) : (e.touch k).Rep A H := by
  obtain ⟨h1, h2, h3, h4, h5, h6, h7, h8⟩ := h
  refine ⟨h1, h2, h3, h4, h5, h6, ?_, ?_⟩
  · intro k' c hc
    simp only [Entry.touch] at hc
    split at hc
    · cases hc; simp
    · exact h7 k' c hc
  · intro k' c hc
    simp only [Entry.touch] at hc
    split at hc
    · cases hc; simp
    · exact h8 k' c hc

theorem rep_greedyLoop {A H} (cnt : Cluster → Nat) (ls : List Label) :
    ∀ (e : Entry) (n : Nat) (out : Option Label), e.Rep A H →
      (e.greedyLoop cnt n out ls).1.Rep A H ∧
      ((e.greedyLoop cnt n out ls).2 = out ∨ ∃ l ∈ ls, (e.greedyLoop cnt n out ls).2 = some l) := by
  induction ls with
  | nil => intro e n out h; exact ⟨h, Or.inl rfl⟩
  | cons l ls ih =>
    intro e n out h
    have lift : ∀ (e' : Entry) (m : Nat), e'.Rep A H → ∀ o, (o = out ∨ o = some l) →
        (e'.greedyLoop cnt m o ls).1.Rep A H ∧
        ((e'.greedyLoop cnt m o ls).2 = out ∨ ∃ l' ∈ l :: ls, (e'.greedyLoop cnt m o ls).2 = some l') := by
      intro e' m he o ho
      have ⟨g1, g2⟩ := ih e' m o he
      refine ⟨g1, ?_⟩
      rcases g2 with g2 | ⟨l', hl', g2⟩
      · rcases ho with ho | ho
        · exact Or.inl (by rw [g2, ho])
        · exact Or.inr ⟨l, by simp, by rw [g2, ho]⟩
      · exact Or.inr ⟨l', by simp [hl'], g2⟩
    unfold Entry.greedyLoop
    split
    · exact ⟨h, Or.inl rfl⟩
    · split
      · split
        · exact lift _ _ h _ (Or.inr rfl)
        · exact lift _ _ h _ (Or.inl rfl)
      · simp only
        split
        · exact lift _ _ (rep_touch h _) _ (Or.inr rfl)
        · exact lift _ _ (rep_touch h _) _ (Or.inl rfl)

theorem rep_greedy {e : Entry} {A H} (h : e.Rep A H) (cnt : Cluster → Nat) (ls : List Label) :
    (e.greedy cnt ls).1.Rep A H ∧
    ((e.greedy cnt ls).2 = none ∨ ∃ l ∈ ls, (e.greedy cnt ls).2 = some l) :=
  rep_greedyLoop cnt ls e _ none h

/-! ## updating -/

theorem ensureLabels_fields (ls : List Label) : ∀ e : Entry,
    (e.ensureLabels ls).labelMap = e.labelMap ∧ (e.ensureLabels ls).noLabel = e.noLabel ∧
    (e.ensureLabels ls).all = e.all ∧
    (∀ k c, (e.ensureLabels ls).notLabelMap k = some c → c = e.all ∧ (∃ l ∈ ls, l.key = k) ∨ e.notLabelMap k = some c) ∧
    (∀ k, (e.notLabelMap k).isSome → (e.ensureLabels ls).notLabelMap k = e.notLabelMap k) ∧
    (∀ l ∈ ls, ((e.ensureLabels ls).notLabelMap l.key).isSome) := by
  induction ls with
  | nil => intro e; exact ⟨rfl, rfl, rfl, fun k c h => Or.inr h, fun k h => rfl, by simp⟩
  | cons a ls ih =>
    intro e
    have e0 : e.ensureLabels (a :: ls) = (e.ensureLabel a.key).ensureLabels ls := rfl
    rw [e0]
    obtain ⟨h1, h2, h3, h4, h5, h6⟩ := ih (e.ensureLabel a.key)
    refine ⟨by rw [h1]; rfl, by rw [h2]; rfl, by rw [h3]; rfl, ?_, ?_, ?_⟩
    · intro k c hc
      rcases h4 k c hc with ⟨g, l, hl, hk⟩ | g
      · exact Or.inl ⟨g, l, by simp [hl], hk⟩
      · simp only [Entry.ensureLabel] at g
        split at g
        · rename_i hk
          cases g
          exact Or.inl ⟨rfl, a, by simp, hk.1.symm⟩
        · exact Or.inr g
    · intro k hk
      have : (e.ensureLabel a.key).notLabelMap k = e.notLabelMap k := by
        simp only [Entry.ensureLabel]
        rw [if_neg]
        intro ⟨_, hn⟩
        rw [hn] at hk
        simp at hk
      rw [h5 k (by rw [this]; exact hk), this]
    · intro l hl
      rcases List.mem_cons.mp hl with rfl | hl
      · have : ((e.ensureLabel l.key).notLabelMap l.key).isSome := by
          simp only [Entry.ensureLabel]
          split
          · rfl
          · rename_i hn
            cases he : e.notLabelMap l.key with
            | none => exact absurd ⟨trivial, he⟩ hn
            | some c => rfl
        rw [h5 _ this]; exact this
      · exact h6 l hl

theorem tryFind_some_of_key {k : String} {ls : List Label} (h : ∃ l ∈ ls, l.key = k) : ∃ l, tryFind k ls = some l := by
  cases hf : tryFind k ls with
  | some l => exact ⟨l, rfl⟩
  | none =>
    obtain ⟨l, hl, hk⟩ := h
    exact absurd hk (tryFind_none.mp hf l hl)

theorem update_fields (e : Entry) (ls : List Label) (upd : Cluster → Cluster) :
    (e.update ls upd).all = upd e.all ∧
    (e.update ls upd).noLabel = (if ls.isEmpty then upd e.noLabel else e.noLabel) ∧
    (∀ k v, (e.update ls upd).labelMap k v = if has k v ls then upd (e.labelMap k v) else e.labelMap k v) ∧
    (∀ k c, (e.update ls upd).notLabelMap k = some c →
      c = upd e.all ∨ ∃ c0, e.notLabelMap k = some c0 ∧ (c = c0 ∨ c = upd c0)) := by
  cases ls with
  | nil => exact ⟨rfl, rfl, fun k v => by simp [has, tryFind, Entry.update], fun k c h => Or.inr ⟨c, h, Or.inl rfl⟩⟩
  | cons a ls =>
    generalize hL : a :: ls = L
    have e0 : e.update L upd = (({ e with all := upd e.all } : Entry).ensureLabels L).updateLabels L upd := by
      rw [← hL]; rfl
    obtain ⟨h1, h2, h3, h4, h5, h6⟩ := ensureLabels_fields L { e with all := upd e.all }
    rw [e0]
    generalize he : (({ e with all := upd e.all } : Entry).ensureLabels L) = e1 at *
    refine ⟨h3, ?_, ?_, ?_⟩
    · show e1.noLabel = _
      rw [h2, ← hL]; rfl
    · intro k v
      simp only [Entry.updateLabels, h1]
      by_cases hv : has k v L = true
      · rw [if_pos hv]
        unfold has at hv
        obtain ⟨l, hf⟩ : ∃ l, tryFind k L = some l := by
          cases hf : tryFind k L with
          | none => rw [hf] at hv; simp at hv
          | some l => exact ⟨l, rfl⟩
        have ⟨hm, hk⟩ := tryFind_mem hf
        have hs := h6 l hm
        rw [hk] at hs
        rw [if_pos (by rw [hs, hv]; rfl)]
      · rw [if_neg hv]
        unfold has at hv
        rw [if_neg (by simp [hv])]
    · intro k c hc
      simp only [Entry.updateLabels] at hc
      split at hc
      · rename_i h8
        obtain ⟨c0, h7, rfl⟩ := Option.map_eq_some_iff.mp hc
        rcases h4 k c0 h7 with ⟨_, hk⟩ | g
        · obtain ⟨l, hl⟩ := tryFind_some_of_key hk
          rw [hl] at h8; cases h8
        · exact Or.inr ⟨c0, g, Or.inr rfl⟩
      · rcases h4 k c hc with ⟨g, _⟩ | g
        · exact Or.inl g
        · exact Or.inr ⟨c, g, Or.inl rfl⟩

theorem rep_insertNode {e : Entry} {A H} (h : e.Rep A H) (s : Service) : (e.insertNode s).Rep (A ++ [s]) H := by
  obtain ⟨h1, h2, h3, h4, h5, h6, h7, h8⟩ := h
  obtain ⟨u1, u2, u3, u4⟩ := update_fields e s.labelsOf (Cluster.addNode s)
  unfold Entry.insertNode
  refine ⟨by rw [u1]; simp [Cluster.addNode, h1], by rw [u1]; simp [Cluster.addNode, h2], ?_, ?_, ?_, ?_, ?_, ?_⟩
  · rw [u2]
    split <;> rename_i hl <;> simp [Cluster.addNode, h3, List.filter_append, hl]
  · rw [u2]
    split <;> simp [Cluster.addNode, h4]
  · intro k v
    rw [u3]
    split <;> rename_i hl <;> simp [Cluster.addNode, h5, List.filter_append, hl]
  · intro k v
    rw [u3]
    split <;> simp [Cluster.addNode, h6]
  · intro k c hc s' hs'
    rcases u4 k c hc with rfl | ⟨c0, hc0, rfl | rfl⟩
    · simpa [Cluster.addNode, h1] using hs'
    · exact List.mem_append_left _ (h7 k _ hc0 s' hs')
    · simp only [Cluster.addNode, List.mem_append] at hs'
      rcases hs' with hs' | hs'
      · exact List.mem_append_left _ (h7 k _ hc0 s' hs')
      · exact List.mem_append_right _ hs'
  · intro k c hc i hi
    rcases u4 k c hc with rfl | ⟨c0, hc0, rfl | rfl⟩
    · simpa [Cluster.addNode, h2] using hi
    · exact h8 k _ hc0 i hi
    · exact h8 k _ hc0 i hi

theorem rep_insertInfo {e : Entry} {A H} (h : e.Rep A H) (i : Info) : (e.insertInfo i).Rep A (H ++ [i]) := by
  obtain ⟨h1, h2, h3, h4, h5, h6, h7, h8⟩ := h
  obtain ⟨u1, u2, u3, u4⟩ := update_fields e i.labels (Cluster.addInfo i)
  unfold Entry.insertInfo
  refine ⟨by rw [u1]; simp [Cluster.addInfo, h1], by rw [u1]; simp [Cluster.addInfo, h2], ?_, ?_, ?_, ?_, ?_, ?_⟩
  · rw [u2]
    split <;> simp [Cluster.addInfo, h3]
  · rw [u2]
    split <;> rename_i hl <;> simp [Cluster.addInfo, h4, List.filter_append, hl]
  · intro k v
    rw [u3]
    split <;> simp [Cluster.addInfo, h5]
  · intro k v
    rw [u3]
    split <;> rename_i hl <;> simp [Cluster.addInfo, h6, List.filter_append, hl]
  · intro k c hc i' hi
    rcases u4 k c hc with rfl | ⟨c0, hc0, rfl | rfl⟩
    · simpa [Cluster.addInfo, h1] using hi
    · exact h7 k _ hc0 i' hi
    · exact h7 k _ hc0 i' hi
  · intro k c hc s' hs'
    rcases u4 k c hc with rfl | ⟨c0, hc0, rfl | rfl⟩
    · simpa [Cluster.addInfo, h2] using hs'
    · exact List.mem_append_left _ (h8 k _ hc0 s' hs')
    · simp only [Cluster.addInfo, List.mem_append] at hs'
      rcases hs' with hs' | hs'
      · exact List.mem_append_left _ (h8 k _ hc0 s' hs')
      · exact List.mem_append_right _ hs'

theorem rep_removeNode {e : Entry} {A H} (h : e.Rep A H) (s : Service) :
    (e.removeNode s).Rep (A.filter (fun n => n.id != s.id)) H := by
  obtain ⟨h1, h2, h3, h4, h5, h6, h7, h8⟩ := h
  refine ⟨by simp [Entry.removeNode, Cluster.removeNode, h1], by simp [Entry.removeNode, Cluster.removeNode, h2], ?_, ?_, ?_, ?_,
    ?_, ?_⟩
  · simp only [Entry.removeNode, Cluster.removeNode, h3, List.filter_filter]
    congr 1; funext x; exact Bool.and_comm _ _
  · simp [Entry.removeNode, Cluster.removeNode, h4]
  · intro k v
    simp only [Entry.removeNode, Cluster.removeNode, h5, List.filter_filter]
    congr 1; funext x; exact Bool.and_comm _ _
  · intro k v
    simp [Entry.removeNode, Cluster.removeNode, h6]
  · intro k c hc x hx
    simp only [Entry.removeNode, Option.map_eq_some_iff] at hc
    obtain ⟨c0, hc0, rfl⟩ := hc
    simp only [Cluster.removeNode, List.mem_filter] at hx ⊢
    exact ⟨h7 k c0 hc0 x hx.1, hx.2⟩
  · intro k c hc x hx
    simp only [Entry.removeNode, Option.map_eq_some_iff] at hc
    obtain ⟨c0, hc0, rfl⟩ := hc
    exact h8 k c0 hc0 x hx

/-! ## searching -/

theorem notLabel_nodes {e : Entry} {A H} (h : e.Rep A H) (k : String) : ∀ s ∈ (e.notLabel k).nodes, s ∈ A := by
  intro s hs
  unfold Entry.notLabel at hs
  cases hc : e.notLabelMap k with
  | none => rw [hc] at hs; simp at hs
  | some c => rw [hc] at hs; exact h.notNodes k c hc s hs

theorem notLabel_infos {e : Entry} {A H} (h : e.Rep A H) (k : String) : ∀ s ∈ (e.notLabel k).infos, s ∈ H := by
  intro s hs
  unfold Entry.notLabel at hs
  cases hc : e.notLabelMap k with
  | none => rw [hc] at hs; simp at hs
  | some c => rw [hc] at hs; exact h.notInfos k c hc s hs

theorem candidates_sub_nodes {e : Entry} {A H} (h : e.Rep A H) (o : Option Label) :
    ∀ s ∈ e.candidates Cluster.nodes o, s ∈ A := by
  intro s hs
  unfold Entry.candidates at hs
  split at hs
  · rwa [h.allNodes] at hs
  · split at hs
    · rename_i l _ _
      simp only [List.mem_append] at hs
      rcases hs with (hs | hs) | hs
      · exact notLabel_nodes h _ s hs
      · rw [h.noNodes] at hs; exact (List.mem_filter.mp hs).1
      · rw [h.lblNodes] at hs; exact (List.mem_filter.mp hs).1
    · rw [h.lblNodes] at hs; exact (List.mem_filter.mp hs).1

theorem candidates_sub_infos {e : Entry} {A H} (h : e.Rep A H) (o : Option Label) :
    ∀ s ∈ e.candidates Cluster.infos o, s ∈ H := by
  intro s hs
  unfold Entry.candidates at hs
  split at hs
  · rwa [h.allInfos] at hs
  · split at hs
    · rename_i l _ _
      simp only [List.mem_append] at hs
      rcases hs with (hs | hs) | hs
      · exact notLabel_infos h _ s hs
      · rw [h.noInfos] at hs; exact (List.mem_filter.mp hs).1
      · rw [h.lblInfos] at hs; exact (List.mem_filter.mp hs).1
    · rw [h.lblInfos] at hs; exact (List.mem_filter.mp hs).1

/-- A matching counterpart carries the value of every mandatory label. -/
theorem match_has {mine theirs : List Label} (hm : matchLabels mine theirs = true) {l : Label} (hl : l ∈ mine)
    (hk : l.kind = .mandatory ∨ ∃ t ∈ theirs, t.key = l.key) : has l.key l.value theirs = true := by
  unfold matchLabels at hm
  rw [Bool.and_eq_true, List.all_eq_true] at hm
  have := hm.1 l hl
  unfold labelMatchesList at this
  unfold has
  cases hf : tryFind l.key theirs with
  | none =>
    rw [hf] at this
    rcases hk with hk | ⟨t, ht, e⟩
    · simp [hk] at this
    · exact absurd e (tryFind_none.mp hf t ht)
  | some f =>
    rw [hf] at this
    simp only [decide_eq_true_eq] at this
    simp [this]

theorem filter_filter_of_imp {α : Type} {p q : α → Bool} {l : List α} (h : ∀ x, q x = true → p x = true) :
    (l.filter p).filter q = l.filter q := by
  rw [List.filter_filter]
  congr 1
  funext x
  cases hq : q x with
  | false => rfl
  | true => simp [h x hq]

theorem onRegistration_exact {e : Entry} {A H} (h : e.Rep A H) (ls : List Label) (hm : ∀ l ∈ ls, l.kind = .mandatory) :
    (e.onRegistration ls).2 = A.filter (fun s => matchLabels ls s.labelsOf) := by
  unfold Entry.onRegistration
  obtain ⟨g1, g2⟩ := rep_greedy h (fun c => c.nodes.length) ls
  generalize e.greedy (fun c => c.nodes.length) ls = r at *
  simp only
  rcases g2 with g2 | ⟨l, hl, g2⟩
  · simp only [g2, Entry.candidates, g1.allNodes]
  · simp only [g2, Entry.candidates, hm l hl, g1.lblNodes]
    apply filter_filter_of_imp
    intro s hs
    exact match_has hs hl (Or.inl (hm l hl))

theorem onRegistration_sound {e : Entry} {A H} (h : e.Rep A H) (ls : List Label) :
    ∀ s ∈ (e.onRegistration ls).2, s ∈ A ∧ matchLabels ls s.labelsOf = true := by
  intro s hs
  unfold Entry.onRegistration at hs
  obtain ⟨g1, g2⟩ := rep_greedy h (fun c => c.nodes.length) ls
  have := List.mem_filter.mp hs
  exact ⟨candidates_sub_nodes g1 _ s this.1, this.2⟩

theorem onRegistration_complete {e : Entry} {A H} (h : e.Rep A H) (ls : List Label) (s : Service) (hs : s ∈ A)
    (hm : matchLabels ls s.labelsOf = true) (hi : s.labelsOf = [] ∨ OptionalKeysIn ls s.labelsOf) :
    s ∈ (e.onRegistration ls).2 := by
  unfold Entry.onRegistration
  obtain ⟨g1, g2⟩ := rep_greedy h (fun c => c.nodes.length) ls
  generalize e.greedy (fun c => c.nodes.length) ls = r at *
  refine List.mem_filter.mpr ⟨?_, hm⟩
  rcases g2 with g2 | ⟨l, hl, g2⟩
  · simp only [g2, Entry.candidates, g1.allNodes]; exact hs
  · cases hk : l.kind with
    | mandatory =>
      simp only [g2, Entry.candidates, hk, g1.lblNodes]
      exact List.mem_filter.mpr ⟨hs, match_has hm hl (Or.inl hk)⟩
    | optional =>
      simp only [g2, Entry.candidates, hk, g1.lblNodes, g1.noNodes, List.mem_append]
      rcases hi with hi | hi
      · exact Or.inl (Or.inr (List.mem_filter.mpr ⟨hs, by simp [hi]⟩))
      · exact Or.inr (List.mem_filter.mpr ⟨hs, match_has hm hl (Or.inr (hi l hl hk))⟩)

/-- Whether a listener wants to hear about a service. -/
def wants (s : Service) (i : Info) : Bool := (s.controllerType == rpcServerInternal) || matchLabels i.labels s.labelsOf

theorem wants_match {s : Service} {i : Info} (hs : s.labelsOf ≠ []) (h : wants s i = true) :
    matchLabels s.labelsOf i.labels = true := by
  unfold wants at h
  have : ¬ s.controllerType = rpcServerInternal := by
    intro e; exact hs (by simp [Service.labelsOf, e])
  simp only [beq_eq_false_iff_ne.mpr this, Bool.false_or] at h
  unfold matchLabels at h ⊢
  rwa [Bool.and_comm]

theorem onChange_filter {e : Entry} {A H} (h : e.Rep A H) (s : Service) :
    ∃ (e' : Entry) (o : Option Label), e'.Rep A H ∧ (o = none ∨ ∃ l ∈ s.labelsOf, o = some l) ∧
      (e.onChange s).1 = e' ∧ (e.onChange s).2 = (e'.candidates Cluster.infos o).filter (wants s) := by
  obtain ⟨g1, g2⟩ := rep_greedy h (fun c => c.infos.length) s.labelsOf
  unfold Entry.onChange
  generalize e.greedy (fun c => c.infos.length) s.labelsOf = r at *
  refine ⟨r.1, r.2, g1, g2, rfl, ?_⟩
  simp only
  congr 1
  funext i
  unfold wants
  rcases g2 with g2 | ⟨l, hl, g2⟩
  · simp [g2]
  · have : ¬ s.controllerType = rpcServerInternal := by
      intro e
      simp [Service.labelsOf, e] at hl
    simp [g2, this]

theorem onChange_exact {e : Entry} {A H} (h : e.Rep A H) (s : Service) (hm : ∀ l ∈ s.labelsOf, l.kind = .mandatory) :
    (e.onChange s).2 = H.filter (wants s) := by
  obtain ⟨e', o, g1, g2, _, g3⟩ := onChange_filter h s
  rw [g3]
  rcases g2 with g2 | ⟨l, hl, g2⟩
  · simp only [g2, Entry.candidates, g1.allInfos]
  · simp only [g2, Entry.candidates, hm l hl, g1.lblInfos]
    apply filter_filter_of_imp
    intro i hi
    exact match_has (wants_match (List.ne_nil_of_mem hl) hi) hl (Or.inl (hm l hl))

theorem onChange_sound {e : Entry} {A H} (h : e.Rep A H) (s : Service) :
    ∀ i ∈ (e.onChange s).2, i ∈ H ∧ wants s i = true := by
  obtain ⟨e', o, g1, g2, _, g3⟩ := onChange_filter h s
  intro i hi
  rw [g3] at hi
  have := List.mem_filter.mp hi
  exact ⟨candidates_sub_infos g1 _ i this.1, this.2⟩

theorem onChange_complete {e : Entry} {A H} (h : e.Rep A H) (s : Service) (i : Info) (hi : i ∈ H) (hw : wants s i = true)
    (ho : i.labels = [] ∨ OptionalKeysIn s.labelsOf i.labels) : i ∈ (e.onChange s).2 := by
  obtain ⟨e', o, g1, g2, _, g3⟩ := onChange_filter h s
  rw [g3]
  refine List.mem_filter.mpr ⟨?_, hw⟩
  rcases g2 with g2 | ⟨l, hl, g2⟩
  · simp only [g2, Entry.candidates, g1.allInfos]; exact hi
  · have hm := wants_match (List.ne_nil_of_mem hl) hw
    cases hk : l.kind with
    | mandatory =>
      simp only [g2, Entry.candidates, hk, g1.lblInfos]
      exact List.mem_filter.mpr ⟨hi, match_has hm hl (Or.inl hk)⟩
    | optional =>
      simp only [g2, Entry.candidates, hk, g1.lblInfos, g1.noInfos, List.mem_append]
      rcases ho with ho | ho
      · exact Or.inl (Or.inr (List.mem_filter.mpr ⟨hi, by simp [ho]⟩))
      · exact Or.inr (List.mem_filter.mpr ⟨hi, match_has hm hl (Or.inr (ho l hl hk))⟩)

theorem rep_onRegistration {e : Entry} {A H} (h : e.Rep A H) (ls : List Label) : (e.onRegistration ls).1.Rep A H :=
  (rep_greedy h _ ls).1

theorem rep_onChange {e : Entry} {A H} (h : e.Rep A H) (s : Service) : (e.onChange s).1.Rep A H :=
  (rep_greedy h _ _).1

/-! ## histories -/

theorem alive_append (ct key : String) (h : List DiscoveryEvent) (ev : DiscoveryEvent) :
    alive ct key (h ++ [ev]) = aliveStep ct key (alive ct key h) ev := by
  simp [alive, List.foldl_append]

theorem listeners_append (ct key : String) (h : List DiscoveryEvent) (ev : DiscoveryEvent) :
    listeners ct key (h ++ [ev]) = listeners ct key h ++ listeners ct key [ev] := by
  induction h with
  | nil => rfl
  | cons e h ih =>
    cases e with
    | appear s => exact ih
    | vanish s => exact ih
    | listen c k i =>
      simp only [List.cons_append, listeners]
      split
      · rw [ih]; rfl
      · exact ih

theorem storeAfter_append (h : List DiscoveryEvent) (ev : DiscoveryEvent) :
    storeAfter (h ++ [ev]) = (storeStep (storeAfter h) ev).1 := by
  simp [storeAfter, List.foldl_append]

theorem rep_storeAfter (h : List DiscoveryEvent) : ∀ ct key, allowed ct = true →
    ((storeAfter h).lookup ct key).Rep (alive ct key h) (listeners ct key h) := by
  rw [← List.reverse_reverse h]
  induction h.reverse with
  | nil => intro ct key _; exact rep_init
  | cons ev h ih =>
    intro ct key hct
    rw [List.reverse_cons, alive_append, listeners_append, storeAfter_append]
    have hr := ih ct key hct
    generalize h.reverse = h' at *
    cases ev with
    | appear s =>
      simp only [storeStep, Store.serviceChange, aliveStep, listeners, List.append_nil, if_true]
      by_cases hs : s.controllerType = ct ∧ s.key = key
      · rw [if_pos hs]
        obtain ⟨rfl, rfl⟩ := hs
        simp only [hct, if_true, Store.set, and_self]
        exact rep_insertNode (rep_onChange hr s) s
      · rw [if_neg hs]
        split
        · simp only [Store.set]
          rw [if_neg (fun ⟨a, b⟩ => hs ⟨a.symm, b.symm⟩)]
          exact hr
        · exact hr
    | vanish s =>
      simp only [storeStep, Store.serviceChange, aliveStep, listeners, List.append_nil, Bool.false_eq_true, if_false]
      by_cases hs : s.controllerType = ct ∧ s.key = key
      · rw [if_pos hs]
        obtain ⟨rfl, rfl⟩ := hs
        simp only [hct, if_true, Store.set, and_self]
        exact rep_removeNode (rep_onChange hr s) s
      · rw [if_neg hs]
        split
        · simp only [Store.set]
          rw [if_neg (fun ⟨a, b⟩ => hs ⟨a.symm, b.symm⟩)]
          exact hr
        · exact hr
    | listen c k i =>
      simp only [storeStep, Store.register, aliveStep, listeners, Store.set]
      by_cases hs : c = ct ∧ k = key
      · rw [if_pos hs]
        obtain ⟨rfl, rfl⟩ := hs
        simp only [and_self, if_true]
        exact rep_insertInfo (rep_onRegistration hr i.labels) i
      · rw [if_neg hs, if_neg (fun ⟨a, b⟩ => hs ⟨a.symm, b.symm⟩), List.append_nil]
        exact hr

end SilKit.Discovery
