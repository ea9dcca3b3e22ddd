import Verif.Spec.Dashboard
/-!
# Lemmas about the dashboard
-/
namespace SilKit.Dashboard
open SilKit SilKit.Dashboard.Spec

/-! ## Participants of an update -/

theorem map_name_onParticipant (ps : List ParticipantDto) (n : String) (f : ParticipantDto → ParticipantDto)
    (hf : ∀ q, (f q).name = q.name) :
    (onParticipant ps n f).map (·.name) = if n ∈ ps.map (·.name) then ps.map (·.name) else ps.map (·.name) ++ [n] := by
  induction ps with
  | nil => simp [onParticipant, hf]
  | cons q ps ih =>
    unfold onParticipant
    by_cases h : q.name = n
    · rw [if_pos h]; simp [hf, h]
    · rw [if_neg h]
      have h' : ¬ n = q.name := fun e => h e.symm
      by_cases hm : n ∈ ps.map (·.name)
      · simp only [List.map_cons, ih, if_pos hm, List.mem_cons, hm, or_true, if_true]
      · simp only [List.map_cons, ih, if_neg hm, List.mem_cons, hm, h', or_false, if_false, List.cons_append]

theorem nodup_onParticipant (ps : List ParticipantDto) (n : String) (f : ParticipantDto → ParticipantDto)
    (hf : ∀ q, (f q).name = q.name) (h : (ps.map (·.name)).Nodup) : ((onParticipant ps n f).map (·.name)).Nodup := by
  rw [map_name_onParticipant ps n f hf]
  by_cases hm : n ∈ ps.map (·.name)
  · rw [if_pos hm]; exact h
  · rw [if_neg hm, List.nodup_append]
    refine ⟨h, by simp, fun a ha b hb => ?_⟩
    rw [List.mem_singleton] at hb
    intro e; exact hm (by rw [← hb, ← e]; exact ha)

/-- What the named participants contribute. -/
def part {β : Type} (g : ParticipantDto → List β) (p : String) (ps : List ParticipantDto) : List β :=
  (ps.filter (·.name = p)).flatMap g

theorem part_eq_nil {β : Type} (g : ParticipantDto → List β) (p : String) (ps : List ParticipantDto)
    (h : p ∉ ps.map (·.name)) : part g p ps = [] := by
  unfold part
  rw [List.filter_eq_nil_iff.2]
  · rfl
  · intro q hq e
    exact h (List.mem_map.2 ⟨q, hq, of_decide_eq_true e⟩)

theorem part_onParticipant {β : Type} (g : ParticipantDto → List β) (p n : String) (x : List β)
    (f : ParticipantDto → ParticipantDto) (hf : ∀ q, (f q).name = q.name) (hg : ∀ q, g (f q) = g q ++ x)
    (h0 : g { name := n } = []) (ps : List ParticipantDto) (h : (ps.map (·.name)).Nodup) :
    part g p (onParticipant ps n f) = part g p ps ++ (if n = p then x else []) := by
  induction ps with
  | nil =>
    unfold part onParticipant
    by_cases e : n = p
    · simp [hf, e, hg, show g { name := p } = [] from e ▸ h0]
    · simp [hf, e]
  | cons q ps ih =>
    rw [List.map_cons, List.nodup_cons] at h
    unfold onParticipant
    by_cases hn : q.name = n
    · rw [if_pos hn]
      by_cases e : n = p
      · have hq : q.name = p := hn.trans e
        have : part g p ps = [] := part_eq_nil g p ps (by rw [← hq]; exact h.1)
        unfold part at this ⊢
        simp only [List.filter_cons, hf, hq, decide_true, if_true, List.flatMap_cons, hg, this, List.append_nil, if_pos e]
      · have hq : ¬ q.name = p := fun c => e (hn.symm.trans c)
        unfold part
        simp only [List.filter_cons, hf, hq, decide_false, if_neg e, List.append_nil, Bool.false_eq_true, if_false]
    · rw [if_neg hn]
      have := ih h.2
      unfold part at this ⊢
      by_cases hq : q.name = p
      · simp only [List.filter_cons, hq, decide_true, if_true, List.flatMap_cons, this, List.append_assoc]
      · simp only [List.filter_cons, hq, decide_false, Bool.false_eq_true, if_false, this]

theorem nodup_connected (cs : List String) (ps : List ParticipantDto) (h : (ps.map (·.name)).Nodup) :
    ((cs.foldl (fun ps c => onParticipant ps c id) ps).map (·.name)).Nodup := by
  induction cs generalizing ps with
  | nil => exact h
  | cons c cs ih => exact ih _ (nodup_onParticipant ps c id (fun _ => rfl) h)

theorem part_connected {β : Type} (g : ParticipantDto → List β) (h0 : ∀ n, g { name := n } = []) (p : String) (cs : List String)
    (ps : List ParticipantDto) (h : (ps.map (·.name)).Nodup) :
    part g p (cs.foldl (fun ps c => onParticipant ps c id) ps) = part g p ps := by
  induction cs generalizing ps with
  | nil => rfl
  | cons c cs ih =>
    rw [List.foldl_cons, ih _ (nodup_onParticipant ps c id (fun _ => rfl) h),
      part_onParticipant g p c [] id (fun _ => rfl) (fun q => (List.append_nil _).symm) (h0 c) ps h]
    simp

theorem mem_connected (p : String) (cs : List String) (ps : List ParticipantDto) :
    p ∈ (cs.foldl (fun ps c => onParticipant ps c id) ps).map (·.name) ↔ p ∈ ps.map (·.name) ∨ p ∈ cs := by
  induction cs generalizing ps with
  | nil => simp
  | cons c cs ih =>
    rw [List.foldl_cons, ih, map_name_onParticipant ps c id (fun _ => rfl)]
    by_cases hm : c ∈ ps.map (·.name)
    · rw [if_pos hm, List.mem_cons]
      constructor
      · rintro (h | h)
        · exact .inl h
        · exact .inr (.inr h)
      · rintro (h | h | h)
        · exact .inl h
        · exact .inl (h ▸ hm)
        · exact .inr h
    · rw [if_neg hm, List.mem_append, List.mem_singleton, List.mem_cons, or_assoc]

/-- The change made by a status. -/
abbrev addStatus (s : ParticipantState) (p : ParticipantDto) : ParticipantDto := { p with statuses := p.statuses ++ [s] }
/-- The change made by a service. -/
abbrev addEntries (es : List Entry) (p : ParticipantDto) : ParticipantDto := { p with entries := p.entries ++ es }

theorem nodup_statuses (ss : List (String × ParticipantState)) (ps : List ParticipantDto) (h : (ps.map (·.name)).Nodup) :
    ((ss.foldl (fun ps s => onParticipant ps s.1 (addStatus s.2)) ps).map (·.name)).Nodup := by
  induction ss generalizing ps with
  | nil => exact h
  | cons c cs ih => exact ih _ (nodup_onParticipant ps c.1 _ (fun _ => rfl) h)

theorem mem_statuses (p : String) (ss : List (String × ParticipantState)) (ps : List ParticipantDto) :
    p ∈ (ss.foldl (fun ps s => onParticipant ps s.1 (addStatus s.2)) ps).map (·.name)
      ↔ p ∈ ps.map (·.name) ∨ p ∈ ss.map (·.1) := by
  induction ss generalizing ps with
  | nil => simp
  | cons c cs ih =>
    rw [List.foldl_cons, ih, map_name_onParticipant ps c.1 (addStatus c.2) (fun _ => rfl), List.map_cons]
    by_cases hm : c.1 ∈ ps.map (·.name)
    · rw [if_pos hm, List.mem_cons]
      constructor
      · rintro (h | h)
        · exact .inl h
        · exact .inr (.inr h)
      · rintro (h | h | h)
        · exact .inl h
        · exact .inl (h ▸ hm)
        · exact .inr h
    · rw [if_neg hm, List.mem_append, List.mem_singleton, List.mem_cons, or_assoc]

theorem statuses_of (p : String) (ss : List (String × ParticipantState)) (ps : List ParticipantDto) (h : (ps.map (·.name)).Nodup) :
    part (·.statuses) p (ss.foldl (fun ps s => onParticipant ps s.1 (addStatus s.2)) ps)
      = part (·.statuses) p ps ++ (ss.filter (·.1 = p)).map (·.2) := by
  induction ss generalizing ps with
  | nil => simp
  | cons c cs ih =>
    rw [List.foldl_cons, ih _ (nodup_onParticipant ps c.1 (addStatus c.2) (fun _ => rfl) h),
      part_onParticipant _ p c.1 [c.2] (addStatus c.2) (fun _ => rfl) (fun q => rfl) rfl ps h]
    by_cases e : c.1 = p
    · simp [e]
    · simp [e]

theorem entries_statuses (p : String) (ss : List (String × ParticipantState)) (ps : List ParticipantDto)
    (h : (ps.map (·.name)).Nodup) :
    part (·.entries) p (ss.foldl (fun ps s => onParticipant ps s.1 (addStatus s.2)) ps) = part (·.entries) p ps := by
  induction ss generalizing ps with
  | nil => rfl
  | cons c cs ih =>
    rw [List.foldl_cons, ih _ (nodup_onParticipant ps c.1 (addStatus c.2) (fun _ => rfl) h),
      part_onParticipant _ p c.1 [] (addStatus c.2) (fun _ => rfl) (fun q => (List.append_nil _).symm) rfl ps h]
    simp

/-- The entries of a list of services. -/
def entriesOf (ds : List Descriptor) : List Entry := ds.flatMap (fun d => (entries d).getD [])

theorem mapServices_facts (ds : List Descriptor) (ps qs : List ParticipantDto) (h : (ps.map (·.name)).Nodup)
    (hm : mapServices ps ds = some qs) :
    (qs.map (·.name)).Nodup ∧ (∀ p, part (·.statuses) p qs = part (·.statuses) p ps)
      ∧ (∀ p, part (·.entries) p qs = part (·.entries) p ps ++ entriesOf (ds.filter (·.participant = p)))
      ∧ ∀ p, p ∈ qs.map (·.name) ↔ p ∈ ps.map (·.name) ∨ p ∈ ds.map (·.participant) := by
  induction ds generalizing ps with
  | nil => cases hm; exact ⟨h, fun _ => rfl, fun _ => by simp [entriesOf], fun _ => by simp⟩
  | cons d ds ih =>
    unfold mapServices at hm
    cases he : entries d with
    | none => simp only [he] at hm; cases hm
    | some es =>
      simp only [he] at hm
      obtain ⟨h1, h2, h3, h4⟩ := ih _ (nodup_onParticipant ps d.participant (addEntries es) (fun _ => rfl) h) hm
      refine ⟨h1, fun p => ?_, fun p => ?_, fun p => ?_⟩
      · rw [h2, part_onParticipant _ p d.participant [] (addEntries es) (fun _ => rfl) (fun q => (List.append_nil _).symm) rfl ps h]
        simp
      · rw [h3, part_onParticipant _ p d.participant es (addEntries es) (fun _ => rfl) (fun q => rfl) rfl ps h]
        by_cases e : d.participant = p
        · simp [entriesOf, e, he]
        · simp [entriesOf, e]
      · rw [h4, map_name_onParticipant ps d.participant (addEntries es) (fun _ => rfl), List.map_cons]
        by_cases hm : d.participant ∈ ps.map (·.name)
        · rw [if_pos hm, List.mem_cons]
          constructor
          · rintro (h | h)
            · exact .inl h
            · exact .inr (.inr h)
          · rintro (h | h | h)
            · exact .inl h
            · exact .inl (h ▸ hm)
            · exact .inr h
        · rw [if_neg hm, List.mem_append, List.mem_singleton, List.mem_cons, or_assoc]

theorem mapServices_isSome (ds : List Descriptor) (ps : List ParticipantDto) (h : ∀ d ∈ ds, (entries d).isSome) :
    (mapServices ps ds).isSome := by
  induction ds generalizing ps with
  | nil => rfl
  | cons d ds ih =>
    unfold mapServices
    cases he : entries d with
    | none => exact absurd (h d (List.mem_cons_self ..)) (by simp [he])
    | some es => exact ih _ (fun d hd => h d (List.mem_cons_of_mem _ hd))

theorem nodup_mapParticipants (b : Bulk) : ((mapParticipants b).map (·.name)).Nodup :=
  nodup_statuses _ _ (nodup_connected _ [] List.nodup_nil)

theorem dto_isSome (b : Bulk) (h : ∀ d ∈ b.services, (entries d).isSome) : b.dto.isSome := by
  unfold Bulk.dto
  rw [Option.isSome_map]
  exact mapServices_isSome _ _ h

theorem dto_facts (b : Bulk) (d : Dto) (h : b.dto = some d) :
    d.stopped = b.stopped ∧ d.system = b.systemStates ∧ (d.participants.map (·.name)).Nodup
      ∧ (∀ p, (about p d).flatMap (·.statuses) = (b.statuses.filter (·.1 = p)).map (·.2))
      ∧ (∀ p, (about p d).flatMap (·.entries) = entriesOf (b.services.filter (·.participant = p)))
      ∧ ∀ p, p ∈ d.participants.map (·.name) ↔ p ∈ b.connected ∨ p ∈ b.statuses.map (·.1) ∨ p ∈ b.services.map (·.participant) := by
  unfold Bulk.dto at h
  rw [Option.map_eq_some_iff] at h
  obtain ⟨ps, hps, rfl⟩ := h
  obtain ⟨h1, h2, h3, h4⟩ := mapServices_facts _ _ _ (nodup_mapParticipants b) hps
  have hn := nodup_connected b.connected [] List.nodup_nil
  refine ⟨rfl, rfl, h1, fun p => ?_, fun p => ?_, fun p => ?_⟩
  · refine (h2 p).trans ((statuses_of p b.statuses _ hn).trans ?_)
    rw [part_connected (·.statuses) (fun _ => rfl) p b.connected [] List.nodup_nil]
    rfl
  · refine (h3 p).trans ?_
    unfold mapParticipants
    rw [entries_statuses p b.statuses _ hn, part_connected (·.entries) (fun _ => rfl) p b.connected [] List.nodup_nil]
    rfl
  · rw [h4 p]
    unfold mapParticipants
    rw [mem_statuses, mem_connected, or_assoc, List.map_nil]
    simp

end SilKit.Dashboard
