import Verif.Lemmas.RpcTokens
/-!
# One call in a network
-/
namespace SilKit.Rpc
open Spec

/-! ## Trouble of servers is visible -/

theorem submitAlive_ub (s : Server) (now : Int) (u : Uuid) (d : Data) : (s.submitAlive now u d).1.ub = s.ub ∧ SOut.ub ∉ (s.submitAlive now u d).2 := by
  refine ⟨rfl, fun h => ?_⟩
  rcases List.mem_append.1 h with h | h
  · obtain ⟨e, _, he⟩ := List.mem_filterMap.1 h
    unfold submitAnswer at he
    split at he <;> cases he
  · split at h
    · simp at h
    · cases h

theorem inline_ub {now : Int} {u : Uuid} (l : List Data) (r : Server × List SOut) (h : SOut.ub ∉ r.2) :
    (l.foldl (inlineStep now u) r).1.ub = r.1.ub ∧ SOut.ub ∉ (l.foldl (inlineStep now u) r).2 := by
  induction l generalizing r with
  | nil => exact ⟨rfl, h⟩
  | cons d l ih =>
    have h1 := submitAlive_ub r.1 now u d
    have := ih (inlineStep now u r d) (fun c => by
      rcases List.mem_append.1 c with c | c
      · exact h c
      · exact h1.2 c)
    exact ⟨this.1.trans h1.1, this.2⟩

theorem take_ub (s : Server) (k : Nat) (now : Int) (m : Call) (inl : List Data) :
    (s.take k now m inl).1.ub = s.ub ∧ SOut.ub ∉ (s.take k now m inl).2 := by
  unfold Server.take
  split
  · exact ⟨rfl, by simp⟩
  · split
    · exact ⟨rfl, by simp⟩
    · split
      · exact ⟨rfl, by simp⟩
      · split
        · exact ⟨rfl, by simp⟩
        · exact inline_ub inl _ (by simp)

theorem submit_ub (s : Server) (now : Int) (u : Uuid) (d : Data) :
    (s.submit now u d).1.ub = true ↔ s.ub = true ∨ SOut.ub ∈ (s.submit now u d).2 := by
  unfold Server.submit
  by_cases hb : s.ub = true
  · simp [hb]
  · rw [if_neg hb]
    split
    · have := submitAlive_ub s now u d
      rw [this.1]
      constructor
      · exact .inl
      · rintro (c | c)
        · exact c
        · exact absurd c this.2
    · simp

theorem mem_server (j k : Nat) (o : List SOut) (x : SOut) : Ev.server j x ∈ o.map (.server k) ↔ k = j ∧ x ∈ o := by
  rw [List.mem_map]
  constructor
  · rintro ⟨y, hy, e⟩
    injection e with e1 e2
    exact ⟨e1, e2 ▸ hy⟩
  · rintro ⟨rfl, hx⟩
    exact ⟨x, hx, rfl⟩

theorem server_not_client (n : Net) (j k : Nat) (x : In) (y : SOut) : Ev.server j y ∉ (n.onClient k x).2 := by
  intro h
  rw [onClient_ev] at h
  rcases List.mem_cons.1 h with h | h
  · cases h
  · obtain ⟨_, _, h⟩ := List.mem_map.1 h
    cases h

/-- How the trouble of a server changes in a step. -/
theorem step_srvub (n : Net) (x : Act) (j : Nat) :
    ((n.step x).1.servers j).ub = true ↔ (n.servers j).ub = true ∨ Ev.server j .ub ∈ (n.step x).2 := by
  have cl : ∀ (n' : Net) (k : Nat) (y : In), n'.servers = n.servers →
      (((n'.onClient k y).1.servers j).ub = true ↔ (n.servers j).ub = true ∨ Ev.server j .ub ∈ (n'.onClient k y).2) := by
    intro n' k y hs
    have := server_not_client n' j k y .ub
    simp only [this, or_false]
    simp only [Net.onClient, hs]
  have sv : ∀ (n' : Net) (k : Nat) (s : Server × List SOut), n'.servers = n.servers → (s.1.ub = true ↔ (n.servers k).ub = true ∨ SOut.ub ∈ s.2) →
      (((n'.onServer k s).1.servers j).ub = true ↔ (n.servers j).ub = true ∨ Ev.server j .ub ∈ (n'.onServer k s).2) := by
    intro n' k s hs hu
    simp only [Net.onServer, mem_server]
    by_cases hj : j = k
    · subst hj
      simp only [upd_same, hu, true_and]
    · rw [upd_ne _ _ hj, hs]
      simp
      intro c
      exact absurd c.symm hj
  have no : ∀ n' : Net, n'.servers = n.servers → ((n'.servers j).ub = true ↔ (n.servers j).ub = true ∨ Ev.server j .ub ∈ ([] : List Ev)) := by
    intro n' hs
    simp [hs]
  cases x with
  | client k x =>
    simp only [Net.step]
    split
    · exact cl n k x rfl
    · exact no n rfl
  | meet k l => exact sv n l _ rfl (by simp [Server.meet]; split <;> simp)
  | enroll k l => exact sv n l _ rfl (by simp [Server.enroll, Server.modify])
  | «open» k l =>
    simp only [Net.step]
    split
    · exact no _ rfl
    · exact no n rfl
  | find k l =>
    simp only [Net.step]
    split
    · exact cl _ k _ rfl
    · exact no n rfl
  | part k l =>
    simp only [Net.step]
    split
    · exact cl _ k _ rfl
    · exact no n rfl
  | setHandler l b => exact sv n l _ rfl (by simp [Server.setHandler])
  | take k l now inl =>
    simp only [Net.step]
    split
    · exact no n rfl
    · refine sv _ l _ rfl ?_
      have := take_ub (n.servers l) k now ‹Call› inl
      rw [this.1]
      simp [this.2]
  | submit l now u d => exact sv n l _ rfl (submit_ub _ now u d)
  | hear k l =>
    simp only [Net.step]
    split
    · exact no n rfl
    · have := cl { n with resps := upd2 n.resps k l ‹_› } k (.hear ‹Response›) rfl
      simp only [List.mem_cons, reduceCtorEq, false_or] at this ⊢
      exact this

theorem net_srvub (h : List Act) (j : Nat) : ((net h).1.servers j).ub = true ↔ Ev.server j .ub ∈ (net h).2 := by
  refine act_induction (P := fun h => ((net h).1.servers j).ub = true ↔ Ev.server j .ub ∈ (net h).2) (by simp [net]) (fun l x ih => ?_) h
  rw [net_snoc]
  simp only [onAct, List.mem_append]
  rw [step_srvub, ih]

theorem net_prefix (a b : List Act) : (net a).2 <+: (net (a ++ b)).2 := by
  refine act_induction (P := fun b => (net a).2 <+: (net (a ++ b)).2) (by simp) (fun l x ih => ?_) b
  rw [← List.append_assoc, net_snoc]
  exact ih.trans (List.prefix_append _ _)

/-! ## The run -/

theorem uuids_append (a b : List In) : uuids (a ++ b) = uuids a ++ uuids b := List.filterMap_append

theorem newN_zero {i j : Nat} {u : Uuid} {r : NR} (x : Act) (hu : u ∉ uuids (inputs i (onAct r x).2)) : newN i j u r.1 x = 0 := by
  cases x with
  | client k x =>
    simp only [newN]
    split
    · rename_i hk
      rw [List.countP_eq_zero]
      intro m hm hc
      have h1 := sends_uuid _ _ m hm
      have hmu : m.uuid = u := by simpa using hc
      refine hu ?_
      have hl : x.isLocal = true := by
        cases x with
        | call _ _ _ _ _ => rfl
        | _ => cases h1
      simp only [onAct, Net.step, if_pos hl, inputs_append, inputs_onClient, if_pos hk.1, uuids_append]
      refine List.mem_append_right _ ?_
      simp [uuids, h1, hmu]
    · rfl
  | _ => rfl

theorem inputs_mono {i : Nat} {r : NR} {x : Act} {u : Uuid} (h : u ∉ uuids (inputs i (onAct r x).2)) : u ∉ uuids (inputs i r.2) := by
  intro c
  refine h ?_
  simp only [onAct, inputs_append, uuids_append]
  exact List.mem_append_left _ c

/-- Nothing of a call is around before it is made. -/
theorem tok_zero (i j : Nat) (u : Uuid) (h : List Act) : u ∉ uuids (inputs i (net h).2) → tok i j u (net h) = 0 := by
  refine act_induction (P := fun h => u ∉ uuids (inputs i (net h).2) → tok i j u (net h) = 0) (fun _ => rfl) (fun l x ih => ?_) h
  rw [net_snoc]
  intro hu
  have h1 := (tok_step (i := i) (j := j) (u := u) (net_N l) x).1
  rw [ih (inputs_mono hu), newN_zero x hu] at h1
  omega

/-- Once a call has been made, it is neither lost nor duplicated. -/
theorem tok_const (i j : Nat) (u : Uuid) (a b : List Act) (hub : ∀ j, Ev.server j .ub ∉ (net (a ++ b)).2) (hp : Act.part i j ∉ b)
    (hu : ∀ T, (net (a ++ b)).2 = (net a).2 ++ T → u ∉ uuids (inputs i T)) : tok i j u (net (a ++ b)) = tok i j u (net a) := by
  have key : ∀ b', b' <+: b → tok i j u (net (a ++ b')) = tok i j u (net a) := by
    intro b'
    refine act_induction (P := fun b' => b' <+: b → tok i j u (net (a ++ b')) = tok i j u (net a)) (fun _ => by simp) (fun l x ih hpre => ?_) b'
    have hl : l <+: b := (List.prefix_append l [x]).trans hpre
    obtain ⟨tail, ht⟩ := hpre
    rw [← List.append_assoc, net_snoc]
    have hs : ∀ j, ((net (a ++ l)).1.servers j).ub = false := by
      intro j
      cases hb : ((net (a ++ l)).1.servers j).ub with
      | false => rfl
      | true =>
        have := (net_srvub _ j).1 hb
        refine absurd ((net_prefix (a ++ l) ([x] ++ tail)).subset this) ?_
        have e : a ++ l ++ ([x] ++ tail) = a ++ b := by rw [← ht]; simp
        rw [e]
        exact hub j
    have hz : newN i j u (net (a ++ l)).1 x = 0 := by
      -- the call is not made again
      cases x with
      | client k y =>
        simp only [newN]
        split
        · rename_i hk
          rw [List.countP_eq_zero]
          intro m hm hc
          have h1 := sends_uuid _ _ m hm
          have hmu : m.uuid = u := by simpa using hc
          have hloc : y.isLocal = true := by
            cases y with
            | call _ _ _ _ _ => rfl
            | _ => cases h1
          obtain ⟨T1, hT1⟩ := net_prefix a l
          obtain ⟨T2, hT2⟩ := net_prefix (a ++ l ++ [Act.client k y]) tail
          have e : a ++ l ++ [Act.client k y] ++ tail = a ++ b := by rw [← ht]; simp
          rw [e, net_snoc] at hT2
          refine hu (T1 ++ ((net (a ++ l)).1.step (.client k y)).2 ++ T2) ?_ ?_
          · rw [← hT2]
            simp only [onAct]
            rw [← hT1]
            simp
          · simp only [Net.step, if_pos hloc, inputs_append, inputs_onClient, if_pos hk.1, uuids_append]
            refine List.mem_append_left _ (List.mem_append_right _ ?_)
            simp [uuids, h1, hmu]
        · rfl
      | _ => rfl
    rw [(tok_step (i := i) (j := j) (u := u) (net_N (a ++ l)) x).2 hs ?_, hz, Nat.add_zero, ih hl]
    intro c
    refine hp ?_
    rw [← ht, ← c]
    simp
  exact key b (List.prefix_refl b)

theorem tok_settled {i j : Nat} {u : Uuid} {r : NR} (s : Settled r.1 i u) : tok i j u r = (repliesFrom i j u r.2).length := by
  unfold tok
  have h1 : callsN r.1 i j u = 0 := by
    unfold callsN
    rw [List.countP_eq_zero]
    intro m hm
    simpa using s.calls j m hm
  have h2 : respsN r.1 i j u = 0 := by
    unfold respsN
    rw [List.countP_eq_zero]
    intro m hm
    simpa using s.resps j m hm
  have h3 : held (r.1.servers j) i u = 0 := by
    unfold held
    cases hg : getIn (r.1.servers j).inner i with
    | none => rfl
    | some n =>
      simp only
      rw [List.count_eq_zero]
      intro hm
      have := s.servers j
      unfold Server.alive at this
      rw [List.any_eq_false] at this
      exact this _ (getIn_mem hg) (by simpa using hm)
  omega

/-! ## The servers that a client knows -/

theorem found_step (i : Nat) {r : NR} {F : List Nat} (hn : F.Nodup) (hm : ∀ j, j ∈ F ↔ r.1.found i j = true)
    (hk : knownCount (inputs i r.2) = F.length) (x : Act) :
    ∃ F : List Nat, F.Nodup ∧ (∀ j, j ∈ F ↔ (onAct r x).1.found i j = true) ∧ knownCount (inputs i (onAct r x).2) = F.length := by
  have nochange : ∀ (n : Net) (ev : List Ev), n.found = r.1.found → (∀ y ∈ inputs i ev, y ≠ .found ∧ y ≠ .lost) →
      ∃ F : List Nat, F.Nodup ∧ (∀ j, j ∈ F ↔ n.found i j = true) ∧ knownCount (inputs i (r.2 ++ ev)) = F.length := by
    intro n ev hf hi
    refine ⟨F, hn, fun j => by rw [hf]; exact hm j, ?_⟩
    rw [inputs_append, ← hk]
    generalize inputs i ev = l at hi
    unfold knownCount
    rw [List.count_append, List.count_append, List.count_eq_zero.2 (fun c => (hi _ c).1 rfl), List.count_eq_zero.2 (fun c => (hi _ c).2 rfl)]
    rfl
  have cl : ∀ (n : Net) (k : Nat) (y : In), y ≠ .found ∧ y ≠ .lost → ∀ z ∈ inputs i (n.onClient k y).2, z ≠ .found ∧ z ≠ .lost := by
    intro n k y hy z hz
    rw [inputs_onClient] at hz
    split at hz
    · rw [List.mem_singleton] at hz; rw [hz]; exact hy
    · cases hz
  have sv : ∀ (n : Net) (k : Nat) (s : Server × List SOut), ∀ z ∈ inputs i (n.onServer k s).2, z ≠ .found ∧ z ≠ .lost := by
    intro n k s z hz
    rw [inputs_onServer] at hz
    cases hz
  unfold onAct
  cases x with
  | client k x =>
    simp only [Net.step]
    split
    · rename_i hl
      refine nochange _ _ rfl (cl _ _ _ ?_)
      constructor <;> intro c <;> rw [c] at hl <;> cases hl
    · exact nochange _ _ rfl (fun y hy => by cases hy)
  | meet k l => exact nochange _ _ rfl (sv _ _ _)
  | enroll k l => exact nochange _ _ rfl (sv _ _ _)
  | «open» k l =>
    simp only [Net.step]
    split <;> exact nochange _ _ rfl (fun y hy => by cases hy)
  | find k l =>
    simp only [Net.step]
    split
    · rename_i hc
      by_cases hk' : k = i
      · refine ⟨l :: F, List.nodup_cons.2 ⟨fun c => ?_, hn⟩, fun j => ?_, ?_⟩
        · rw [hm, ← hk', hc.2] at c; cases c
        · simp only [Net.onClient]
          rw [List.mem_cons]
          by_cases hj : j = l
          · simp [hj, hk', upd2_same]
          · rw [upd2_ne _ _ (fun c => hj c.2), hm]; simp [hj]
        · simp only [inputs_append, inputs_onClient, if_pos hk', knownCount_snoc_found, hk]
          simp
      · refine ⟨F, hn, fun j => ?_, ?_⟩
        · simp only [Net.onClient]
          rw [upd2_ne _ _ (fun c => hk' c.1.symm), hm]
        · simp only [inputs_append, inputs_onClient, if_neg hk', List.append_nil, hk]
    · exact nochange _ _ rfl (fun y hy => by cases hy)
  | part k l =>
    simp only [Net.step]
    split
    · rename_i hc
      by_cases hk' : k = i
      · refine ⟨F.erase l, hn.erase l, fun j => ?_, ?_⟩
        · simp only [Net.onClient]
          rw [hn.mem_erase_iff]
          by_cases hj : j = l
          · simp [hj, hk', upd2_same]
          · rw [upd2_ne _ _ (fun c => hj c.2), hm]; simp [hj]
        · simp only [inputs_append, inputs_onClient, if_pos hk', knownCount_snoc_lost, hk]
          have hl : l ∈ F := by rw [hm, ← hk']; exact hc
          rw [List.length_erase_of_mem hl]
          have := List.length_pos_of_mem hl
          omega
      · refine ⟨F, hn, fun j => ?_, ?_⟩
        · simp only [Net.onClient]
          rw [upd2_ne _ _ (fun c => hk' c.1.symm), hm]
        · simp only [inputs_append, inputs_onClient, if_neg hk', List.append_nil, hk]
    · exact nochange _ _ rfl (fun y hy => by cases hy)
  | setHandler l b => exact nochange _ _ rfl (sv _ _ _)
  | take k l now inl =>
    simp only [Net.step]
    split
    · exact nochange _ _ rfl (fun y hy => by cases hy)
    · exact nochange _ _ rfl (sv _ _ _)
  | submit l now u d => exact nochange _ _ rfl (sv _ _ _)
  | hear k l =>
    simp only [Net.step]
    split
    · exact nochange _ _ rfl (fun y hy => by cases hy)
    · refine nochange _ _ rfl ?_
      intro z hz
      rw [inputs, List.filterMap_cons_none rfl] at hz
      exact cl _ _ _ ⟨by simp, by simp⟩ z hz

theorem net_found (i : Nat) (h : List Act) :
    ∃ F : List Nat, F.Nodup ∧ (∀ j, j ∈ F ↔ (net h).1.found i j = true) ∧ knownCount (inputs i (net h).2) = F.length := by
  refine act_induction (P := fun h => ∃ F : List Nat, F.Nodup ∧ (∀ j, j ∈ F ↔ (net h).1.found i j = true) ∧ knownCount (inputs i (net h).2) = F.length)
    ⟨[], List.nodup_nil, fun j => by simp [net], rfl⟩ (fun l x ih => ?_) h
  obtain ⟨F, h1, h2, h3⟩ := ih
  rw [net_snoc]
  exact found_step i h1 h2 h3 x

theorem known_eq {i : Nat} {h : List Act} {S : List Nat} (hn : S.Nodup) (hm : ∀ j, j ∈ S ↔ (net h).1.found i j = true) :
    knownCount (inputs i (net h).2) = S.length := by
  obtain ⟨F, h1, h2, h3⟩ := net_found i h
  rw [h3]
  have : F.Perm S := (List.perm_ext_iff_of_nodup h1 hn).2 fun j => by rw [h2, hm]
  rw [this.length_eq]

end SilKit.Rpc
