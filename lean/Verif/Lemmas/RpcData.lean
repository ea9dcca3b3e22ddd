import Verif.Lemmas.RpcRun
/-!
# What the messages contain
-/
namespace SilKit.Rpc
open Spec

/-- What a server may do in a step that submits the results `ds` for the call `u`. -/
def Fine (k : Nat) (m : Call) (ds : List Data) (o : SOut) : Prop :=
  match o with
  | .called i u d => i = k ∧ u = m.uuid ∧ d = m.data
  | .answer _ m' => m'.status = .success → m'.uuid = m.uuid ∧ m'.data ∈ ds
  | _ => True

theorem submitAlive_fine (s : Server) (k : Nat) (m : Call) (now : Int) (d : Data) (ds : List Data) (hd : d ∈ ds) :
    ∀ o ∈ (s.submitAlive now m.uuid d).2, Fine k m ds o := by
  intro o ho
  rcases List.mem_append.1 ho with ho | ho
  · obtain ⟨e, _, he⟩ := List.mem_filterMap.1 ho
    unfold submitAnswer at he
    split at he
    · cases he
      exact fun _ => ⟨rfl, hd⟩
    · cases he
  · split at ho
    · rw [List.mem_singleton] at ho; subst ho; trivial
    · cases ho

theorem inline_fine (k : Nat) (m : Call) (now : Int) (ds l : List Data) (hl : ∀ d ∈ l, d ∈ ds) (r : Server × List SOut) (h : ∀ o ∈ r.2, Fine k m ds o) :
    ∀ o ∈ (l.foldl (inlineStep now m.uuid) r).2, Fine k m ds o := by
  induction l generalizing r with
  | nil => exact h
  | cons d l ih =>
    refine ih (fun d hd => hl d (List.mem_cons_of_mem _ hd)) _ fun o ho => ?_
    rcases List.mem_append.1 ho with ho | ho
    · exact h o ho
    · exact submitAlive_fine r.1 k m now d ds (hl d List.mem_cons_self) o ho

theorem take_fine (s : Server) (k : Nat) (now : Int) (m : Call) (inl : List Data) : ∀ o ∈ (s.take k now m inl).2, Fine k m inl o := by
  unfold Server.take
  split
  · intro o ho; cases ho
  · split
    · intro o ho; cases ho
    · split
      · intro o ho
        rw [List.mem_singleton] at ho; subst ho
        intro c; cases c
      · split
        · intro o ho
          rw [List.mem_singleton] at ho; subst ho
          intro c; cases c
        · refine inline_fine k m now inl inl (fun d h => h) _ fun o ho => ?_
          rw [List.mem_singleton] at ho; subst ho
          exact ⟨rfl, rfl, rfl⟩

theorem submit_not_called (s : Server) (now : Int) (u : Uuid) (d : Data) (i : Nat) (v : Uuid) (e : Data) : SOut.called i v e ∉ (s.submit now u d).2 := by
  unfold Server.submit
  split
  · simp
  · split
    · intro ho
      rcases List.mem_append.1 ho with ho | ho
      · obtain ⟨x, _, he⟩ := List.mem_filterMap.1 ho
        unfold submitAnswer at he
        split at he <;> cases he
      · split at ho <;> simp at ho
    · simp

theorem submit_answer (s : Server) (now : Int) (u : Uuid) (d : Data) (i : Nat) (m : Response) (h : SOut.answer i m ∈ (s.submit now u d).2) :
    m.uuid = u ∧ m.data = d := by
  unfold Server.submit at h
  split at h
  · cases h
  · split at h
    · have := submitAlive_fine s 0 ⟨0, u, []⟩ now d [d] (by simp) _ h
      have hs : m.status = .success := by
        rcases List.mem_append.1 h with h | h
        · obtain ⟨e, _, he⟩ := List.mem_filterMap.1 h
          unfold submitAnswer at he
          split at he
          · cases he; rfl
          · cases he
        · split at h <;> simp at h
      exact ⟨(this hs).1, by simpa using (this hs).2⟩
    · simp at h

theorem submits_snoc {j : Nat} {u : Uuid} {d : Data} {h : List Act} (x : Act) : Submits j u d h → Submits j u d (h ++ [x]) := by
  rintro ⟨a, y, c, rfl, hh⟩
  exact ⟨a, y, c ++ [x], by simp, hh⟩

/-- The handler was called for the call `u` of client `i`, and no result was submitted yet. -/
def Act' (s : Server) (i : Nat) (u : Uuid) : Prop := ∃ n, (i, n) ∈ s.inner ∧ u ∈ n.active

theorem act_map {s : Server} {f : Nat × Inner → Nat × Inner} {A : Nat → Uuid → Prop} (hA : ∀ i u, Act' s i u → A i u)
    (hf : ∀ e, (f e).1 = e.1 ∧ ∀ u ∈ (f e).2.active, u ∈ e.2.active ∨ A e.1 u) (b b' : Bool) (i : Nat) (u : Uuid)
    (h : Act' { s with handler := b, inner := s.inner.map f, ub := b' } i u) : A i u := by
  obtain ⟨n, hn, hu⟩ := h
  obtain ⟨e, he, e'⟩ := List.mem_map.1 hn
  have h1 := (hf e).1
  have h2 := (hf e).2 u
  rw [e'] at h1 h2
  simp only at h1 h2
  rcases h2 hu with h2 | h2
  · exact h1 ▸ hA e.1 u ⟨e.2, he, h2⟩
  · exact h1 ▸ h2

theorem act_submitAlive {s : Server} {A : Nat → Uuid → Prop} (hA : ∀ i u, Act' s i u → A i u) (now : Int) (v : Uuid) (d : Data) :
    (∀ i u, Act' (s.submitAlive now v d).1 i u → A i u) ∧ (∀ i m, SOut.answer i m ∈ (s.submitAlive now v d).2 → A i m.uuid) := by
  refine ⟨fun i u h => act_map hA (fun e => ?_) s.handler s.ub i u h, fun i m h => ?_⟩
  · unfold submitEntry
    split
    · exact ⟨rfl, fun u hu => .inl (List.mem_filter.1 hu).1⟩
    · exact ⟨rfl, fun u hu => .inl hu⟩
  · rcases List.mem_append.1 h with h | h
    · obtain ⟨e, he, e'⟩ := List.mem_filterMap.1 h
      unfold submitAnswer at e'
      split at e'
      · rename_i hc
        cases e'
        exact hA _ _ ⟨e.2, he, hc.2⟩
      · cases e'
    · split at h <;> simp at h

theorem act_inline {A : Nat → Uuid → Prop} (now : Int) (v : Uuid) (l : List Data) (r : Server × List SOut) (h1 : ∀ i u, Act' r.1 i u → A i u)
    (h2 : ∀ i m, SOut.answer i m ∈ r.2 → A i m.uuid) :
    (∀ i u, Act' (l.foldl (inlineStep now v) r).1 i u → A i u) ∧ (∀ i m, SOut.answer i m ∈ (l.foldl (inlineStep now v) r).2 → A i m.uuid) := by
  induction l generalizing r with
  | nil => exact ⟨h1, h2⟩
  | cons d l ih =>
    have := act_submitAlive h1 now v d
    refine ih _ this.1 fun i m h => ?_
    rcases List.mem_append.1 h with h | h
    · exact h2 i m h
    · exact this.2 i m h

theorem inline_grows (now : Int) (v : Uuid) (l : List Data) (r : Server × List SOut) (o : SOut) (h : o ∈ r.2) : o ∈ (l.foldl (inlineStep now v) r).2 := by
  induction l generalizing r with
  | nil => exact h
  | cons d l ih => exact ih _ (List.mem_append_left _ h)

theorem act_take (s : Server) (k : Nat) (now : Int) (m : Call) (inl : List Data) :
    (∀ i u, Act' (s.take k now m inl).1 i u → Act' s i u ∨ ∃ d, SOut.called i u d ∈ (s.take k now m inl).2) ∧
    (∀ i m', SOut.answer i m' ∈ (s.take k now m inl).2 → m'.status = .success → m'.uuid = m.uuid ∧ (∃ e, SOut.called k m.uuid e ∈ (s.take k now m inl).2) ∧
      (Act' s i m'.uuid ∨ ∃ d, SOut.called i m'.uuid d ∈ (s.take k now m inl).2)) := by
  refine ⟨?_, fun i m' h hst => ⟨(take_fine s k now m inl _ h hst).1, ?_⟩⟩
  · unfold Server.take
    split
    · exact fun _ _ h => .inl h
    · split
      · exact fun _ _ h => .inl h
      · split
        · exact fun _ _ h => .inl h
        · split
          · exact fun _ _ h => .inl h
          · refine (act_inline (A := fun i u => Act' s i u ∨ ∃ d, SOut.called i u d ∈ _) now m.uuid inl _ (fun i u h => ?_) (fun i m h => by simp at h)).1
            refine act_map (A := fun i u => Act' s i u ∨ ∃ d, SOut.called i u d ∈ _) (fun _ _ h => .inl h) (fun e => ?_) s.handler s.ub i u h
            unfold modEntry
            split
            · rename_i hk
              refine ⟨rfl, fun u hu => ?_⟩
              rcases List.mem_append.1 hu with hu | hu
              · exact .inl hu
              · rw [List.mem_singleton] at hu
                exact .inr (.inr ⟨m.data, inline_grows _ _ _ _ _ (by rw [hk, hu]; simp)⟩)
            · exact ⟨rfl, fun u hu => .inl hu⟩
  · revert h
    unfold Server.take
    split
    · intro h; cases h
    · split
      · intro h; cases h
      · split
        · intro h; rw [List.mem_singleton] at h; cases h; cases hst
        · split
          · intro h; rw [List.mem_singleton] at h; cases h; cases hst
          · intro h
            refine ⟨⟨m.data, inline_grows _ _ _ _ _ (by simp)⟩, ?_⟩
            refine (act_inline (A := fun i u => Act' s i u ∨ ∃ d, SOut.called i u d ∈ _) now m.uuid inl _ (fun i u h => ?_) (fun i m h => by simp at h)).2 i m' h
            refine act_map (A := fun i u => Act' s i u ∨ ∃ d, SOut.called i u d ∈ _) (fun _ _ h => .inl h) (fun e => ?_) s.handler s.ub i u h
            unfold modEntry
            split
            · rename_i hk
              refine ⟨rfl, fun u hu => ?_⟩
              rcases List.mem_append.1 hu with hu | hu
              · exact .inl hu
              · rw [List.mem_singleton] at hu
                exact .inr (.inr ⟨m.data, inline_grows _ _ _ _ _ (by rw [hk, hu]; simp)⟩)
            · exact ⟨rfl, fun u hu => .inl hu⟩

theorem act_submit (s : Server) (now : Int) (v : Uuid) (d : Data) :
    (∀ i u, Act' (s.submit now v d).1 i u → Act' s i u) ∧ (∀ i m, SOut.answer i m ∈ (s.submit now v d).2 → Act' s i m.uuid) := by
  unfold Server.submit
  split
  · exact ⟨fun _ _ h => h, fun _ _ h => by cases h⟩
  · split
    · exact act_submitAlive (fun _ _ h => h) now v d
    · exact ⟨fun _ _ h => h, fun _ _ h => by simp at h⟩

theorem act_meet (s : Server) (k i : Nat) (u : Uuid) (h : Act' (s.meet k) i u) : Act' s i u := by
  unfold Server.meet at h
  split at h
  · exact h
  · obtain ⟨n, hn, hu⟩ := h
    rcases List.mem_append.1 hn with hn | hn
    · exact ⟨n, hn, hu⟩
    · rw [List.mem_singleton] at hn
      cases hn
      cases hu

theorem act_enroll (s : Server) (k i : Nat) (u : Uuid) (h : Act' (s.enroll k) i u) : Act' s i u := by
  refine act_map (fun _ _ h => h) (fun e => ?_) s.handler s.ub i u h
  unfold modEntry
  split
  · exact ⟨rfl, fun _ h => .inl h⟩
  · exact ⟨rfl, fun _ h => .inl h⟩

theorem act_setHandler (s : Server) (b : Bool) (i : Nat) (u : Uuid) (h : Act' (s.setHandler b) i u) : Act' s i u := by
  refine act_map (fun _ _ h => h) (fun e => ?_) b s.ub i u h
  unfold setEntry
  split
  · exact ⟨rfl, fun _ h => .inl h⟩
  · exact ⟨rfl, fun _ h => .inl h⟩

structure M (h : List Act) (r : NR) : Prop where
  calls : ∀ i j, ∀ m ∈ r.1.calls i j, Ev.client i (.sent m) ∈ r.2
  called : ∀ j i u d, Ev.server j (.called i u d) ∈ r.2 → ∃ now, Ev.client i (.sent ⟨now, u, d⟩) ∈ r.2
  resps : ∀ i j, ∀ m ∈ r.1.resps i j, Ev.server j (.answer i m) ∈ r.2
  heard : ∀ i j m, Ev.heard i j m ∈ r.2 → Ev.server j (.answer i m) ∈ r.2
  answer : ∀ j i m, Ev.server j (.answer i m) ∈ r.2 → m.status = .success → Submits j m.uuid m.data h
  active : ∀ j i u, Act' (r.1.servers j) i u → ∃ d, Ev.server j (.called i u d) ∈ r.2
  based : ∀ j i m, Ev.server j (.answer i m) ∈ r.2 → m.status = .success → ∃ d, Ev.server j (.called i m.uuid d) ∈ r.2
  sent : ∀ i m, Ev.client i (.sent m) ∈ r.2 → ∃ ctx t, Ev.input i (.call m.now m.uuid ctx m.data t) ∈ r.2

theorem mem_filterMap_sent {o : List Out} {m : Call} : m ∈ o.filterMap sentCall ↔ Out.sent m ∈ o := by
  rw [List.mem_filterMap]
  constructor
  · rintro ⟨x, hx, e⟩
    cases x with
    | sent m' => cases e; exact hx
    | _ => cases e
  · intro h; exact ⟨_, h, rfl⟩

theorem mem_filterMap_answered {o : List SOut} {i : Nat} {m : Response} : m ∈ o.filterMap (answered i) ↔ SOut.answer i m ∈ o := by
  rw [List.mem_filterMap]
  constructor
  · rintro ⟨x, hx, e⟩
    cases x with
    | answer k m' =>
      simp only [answered] at e
      split at e
      · rename_i hk
        injection e with e
        rw [← hk, ← e]; exact hx
      · simp at e
    | _ => cases e
  · intro h; exact ⟨_, h, by simp [answered]⟩

theorem client_sent (n : Net) (k i : Nat) (x : In) (o : Out) : Ev.client i o ∈ (n.onClient k x).2 ↔ k = i ∧ o ∈ ((n.clients k).step x).2 := by
  rw [onClient_ev, List.mem_cons, List.mem_map]
  constructor
  · rintro (h | ⟨y, hy, e⟩)
    · cases h
    · cases e; exact ⟨rfl, hy⟩
  · rintro ⟨rfl, h⟩
    exact .inr ⟨o, h, rfl⟩

theorem sends_call (c : Client) (x : In) (m : Call) (h : Out.sent m ∈ (c.step x).2) : ∃ ctx t, x = .call m.now m.uuid ctx m.data t := by
  have hm := mem_filterMap_sent.2 h
  have hu := sends_uuid c x m hm
  cases x with
  | call now u ctx data t =>
    unfold Client.step at h
    split at h
    · cases h
    · simp only at h
      rcases call_cases c now u ctx data t with ⟨_, ec⟩ | ⟨_, ec⟩
      · rw [ec] at h
        simp only at h
        split at h <;> simp at h
      · rw [ec] at h
        simp at h
        rw [h]
        exact ⟨ctx, t, rfl⟩
  | _ => cases hu

theorem M_client {h : List Act} {r : NR} (g : M h r) (x : Act) (n : Net) (k : Nat) (y : In) (pre : List Ev)
    (hsv : n.servers = r.1.servers)
    (hc : ∀ i j, ∀ m ∈ n.calls i j, m ∈ r.1.calls i j) (hr : ∀ i j, ∀ m ∈ n.resps i j, m ∈ r.1.resps i j)
    (hs : ∀ j o, Ev.server j o ∉ pre) (hcl : ∀ j o, Ev.client j o ∉ pre) (hh : ∀ i j m, Ev.heard i j m ∈ pre → m ∈ r.1.resps i j) :
    M (h ++ [x]) ((n.onClient k y).1, r.2 ++ (pre ++ (n.onClient k y).2)) := by
  have srv : ∀ j o, Ev.server j o ∈ r.2 ++ (pre ++ (n.onClient k y).2) ↔ Ev.server j o ∈ r.2 := by
    intro j o
    simp [hs, server_not_client]
  have incl : ∀ e, e ∈ r.2 → e ∈ r.2 ++ (pre ++ (n.onClient k y).2) := fun e he => List.mem_append_left _ he
  refine ⟨fun i j m hm => ?_, fun j i u d hm => ?_, fun i j m hm => incl _ (g.resps i j m (hr i j m hm)), fun i j m hm => ?_, fun j i m hm hst => ?_, fun j i u hm => ?_, fun j i m hm hst => ?_, fun i m hm => ?_⟩
  · simp only [Net.onClient] at hm
    split at hm
    · rename_i hk
      rcases List.mem_append.1 hm with hm | hm
      · exact incl _ (g.calls i j m (hc i j m hm))
      · refine List.mem_append_right _ (List.mem_append_right _ ?_)
        rw [client_sent]
        exact ⟨hk.1.symm, mem_filterMap_sent.1 hm⟩
    · exact incl _ (g.calls i j m (hc i j m hm))
  · obtain ⟨now, hm⟩ := g.called j i u d ((srv _ _).1 hm)
    exact ⟨now, incl _ hm⟩
  · rcases List.mem_append.1 hm with hm | hm
    · exact incl _ (g.heard i j m hm)
    · rcases List.mem_append.1 hm with hm | hm
      · exact incl _ (g.resps i j m (hh i j m hm))
      · exfalso
        rw [onClient_ev] at hm
        rcases List.mem_cons.1 hm with hm | hm
        · cases hm
        · obtain ⟨_, _, e⟩ := List.mem_map.1 hm
          cases e
  · exact submits_snoc x (g.answer j i m ((srv _ _).1 hm) hst)
  · obtain ⟨d, hd⟩ := g.active j i u (hsv ▸ hm)
    exact ⟨d, incl _ hd⟩
  · obtain ⟨d, hd⟩ := g.based j i m ((srv _ _).1 hm) hst
    exact ⟨d, incl _ hd⟩
  · rcases List.mem_append.1 hm with hm | hm
    · obtain ⟨ctx, t, hh⟩ := g.sent i m hm
      exact ⟨ctx, t, incl _ hh⟩
    · rcases List.mem_append.1 hm with hm | hm
      · exact absurd hm (hcl _ _)
      · rw [client_sent] at hm
        obtain ⟨ctx, t, e⟩ := sends_call _ _ _ hm.2
        refine ⟨ctx, t, List.mem_append_right _ (List.mem_append_right _ ?_)⟩
        rw [onClient_ev, e, hm.1]
        exact List.mem_cons_self

theorem M_server {h : List Act} {r : NR} (g : M h r) (x : Act) (n : Net) (k : Nat) (s : Server × List SOut)
    (hc : ∀ i j, ∀ m ∈ n.calls i j, m ∈ r.1.calls i j) (hr : n.resps = r.1.resps)
    (h1 : ∀ i u d, SOut.called i u d ∈ s.2 → ∃ now, Ev.client i (.sent ⟨now, u, d⟩) ∈ r.2)
    (h2 : ∀ i m, SOut.answer i m ∈ s.2 → m.status = .success → Submits k m.uuid m.data (h ++ [x]))
    (hsv : n.servers = r.1.servers)
    (h3 : ∀ i u, Act' s.1 i u → Act' (r.1.servers k) i u ∨ ∃ d, SOut.called i u d ∈ s.2)
    (h4 : ∀ i m, SOut.answer i m ∈ s.2 → m.status = .success → Act' (r.1.servers k) i m.uuid ∨ ∃ d, SOut.called i m.uuid d ∈ s.2) :
    M (h ++ [x]) ((n.onServer k s).1, r.2 ++ (n.onServer k s).2) := by
  have incl : ∀ e, e ∈ r.2 → e ∈ r.2 ++ (n.onServer k s).2 := fun e he => List.mem_append_left _ he
  have mem : ∀ j o, Ev.server j o ∈ (n.onServer k s).2 ↔ k = j ∧ o ∈ s.2 := fun j o => mem_server j k s.2 o
  have cls : ∀ i o, Ev.client i o ∉ (n.onServer k s).2 := by
    intro i o c
    obtain ⟨_, _, e⟩ := List.mem_map.1 c
    cases e
  refine ⟨fun i j m hm => incl _ (g.calls i j m (hc i j m hm)), fun j i u d hm => ?_, fun i j m hm => ?_, fun i j m hm => ?_, fun j i m hm hst => ?_, fun j i u hm => ?_, fun j i m hm hst => ?_, fun i m hm => ?_⟩
  · rcases List.mem_append.1 hm with hm | hm
    · obtain ⟨now, hm⟩ := g.called j i u d hm
      exact ⟨now, incl _ hm⟩
    · obtain ⟨now, hm⟩ := h1 i u d ((mem _ _).1 hm).2
      exact ⟨now, incl _ hm⟩
  · simp only [Net.onServer] at hm
    split at hm
    · rename_i hj
      rcases List.mem_append.1 hm with hm | hm
      · exact incl _ (g.resps i j m (hr ▸ hm))
      · exact List.mem_append_right _ ((mem _ _).2 ⟨hj.symm, mem_filterMap_answered.1 hm⟩)
    · exact incl _ (g.resps i j m (hr ▸ hm))
  · rcases List.mem_append.1 hm with hm | hm
    · exact incl _ (g.heard i j m hm)
    · obtain ⟨_, _, e⟩ := List.mem_map.1 hm
      cases e
  · rcases List.mem_append.1 hm with hm | hm
    · exact submits_snoc x (g.answer j i m hm hst)
    · obtain ⟨hk, hm'⟩ := (mem _ _).1 hm
      subst hk
      exact h2 i m hm' hst
  · by_cases hj : j = k
    · subst hj
      simp only [Net.onServer, upd_same] at hm
      rcases h3 i u hm with h | ⟨d, h⟩
      · obtain ⟨d, hd⟩ := g.active j i u h
        exact ⟨d, incl _ hd⟩
      · exact ⟨d, List.mem_append_right _ ((mem _ _).2 ⟨rfl, h⟩)⟩
    · simp only [Net.onServer, upd_ne _ _ hj] at hm
      obtain ⟨d, hd⟩ := g.active j i u (hsv ▸ hm)
      exact ⟨d, incl _ hd⟩
  · rcases List.mem_append.1 hm with hm | hm
    · obtain ⟨d, hd⟩ := g.based j i m hm hst
      exact ⟨d, incl _ hd⟩
    · obtain ⟨hk, hm'⟩ := (mem _ _).1 hm
      subst hk
      rcases h4 i m hm' hst with h | ⟨d, h⟩
      · obtain ⟨d, hd⟩ := g.active k i m.uuid h
        exact ⟨d, incl _ hd⟩
      · exact ⟨d, List.mem_append_right _ ((mem _ _).2 ⟨rfl, h⟩)⟩
  · rcases List.mem_append.1 hm with hm | hm
    · obtain ⟨ctx, t, hh⟩ := g.sent i m hm
      exact ⟨ctx, t, incl _ hh⟩
    · exact absurd hm (cls _ _)

theorem M_none {h : List Act} {r : NR} (g : M h r) (x : Act) (n : Net) (hsv : n.servers = r.1.servers) (hc : n.calls = r.1.calls) (hr : n.resps = r.1.resps) : M (h ++ [x]) (n, r.2 ++ []) := by
  rw [List.append_nil]
  refine ⟨fun i j m hm => g.calls i j m (hc ▸ hm), g.called, fun i j m hm => g.resps i j m (hr ▸ hm), g.heard, fun j i m hm hst => submits_snoc x (g.answer j i m hm hst),
    fun j i u hm => g.active j i u (hsv ▸ hm), g.based, g.sent⟩

theorem M_step {h : List Act} (g : M h (net h)) (x : Act) : M (h ++ [x]) (onAct (net h) x) := by
  generalize hrr : net h = r at g
  unfold onAct
  have np : ∀ j o, Ev.server j o ∉ ([] : List Ev) := fun _ _ c => by cases c
  have nq : ∀ j o, Ev.client j o ∉ ([] : List Ev) := fun _ _ c => by cases c
  have nh : ∀ i j m, Ev.heard i j m ∈ ([] : List Ev) → m ∈ r.1.resps i j := fun _ _ _ c => by cases c
  cases x with
  | client k y =>
    simp only [Net.step]
    split
    · exact M_client g _ r.1 k y [] rfl (fun _ _ _ h => h) (fun _ _ _ h => h) np nq nh
    · exact M_none g _ r.1 rfl rfl rfl
  | meet k l =>
    exact M_server g _ r.1 l ((r.1.servers l).meet k, []) (fun _ _ _ h => h) rfl (fun _ _ _ c => by cases c) (fun _ _ c => by cases c) rfl
      (fun i u h => .inl (act_meet _ k i u h)) (fun _ _ c => by cases c)
  | enroll k l =>
    exact M_server g _ r.1 l ((r.1.servers l).enroll k, []) (fun _ _ _ h => h) rfl (fun _ _ _ c => by cases c) (fun _ _ c => by cases c) rfl
      (fun i u h => .inl (act_enroll _ k i u h)) (fun _ _ c => by cases c)
  | «open» k l =>
    simp only [Net.step]
    split
    · exact M_none g _ _ rfl rfl rfl
    · exact M_none g _ r.1 rfl rfl rfl
  | find k l =>
    simp only [Net.step]
    split
    · exact M_client g _ _ k _ [] rfl (fun _ _ _ h => h) (fun _ _ _ h => h) np nq nh
    · exact M_none g _ r.1 rfl rfl rfl
  | part k l =>
    simp only [Net.step]
    split
    · refine M_client g _ _ k _ [] rfl (fun i j m hm => ?_) (fun i j m hm => ?_) np nq nh
      · by_cases hk : i = k ∧ j = l
        · rw [hk.1, hk.2] at hm; simp [upd2_same] at hm
        · simp only [upd2_ne _ _ hk] at hm; exact hm
      · by_cases hk : i = k ∧ j = l
        · rw [hk.1, hk.2] at hm; simp [upd2_same] at hm
        · simp only [upd2_ne _ _ hk] at hm; exact hm
    · exact M_none g _ r.1 rfl rfl rfl
  | setHandler l b =>
    exact M_server g _ r.1 l ((r.1.servers l).setHandler b, []) (fun _ _ _ h => h) rfl (fun _ _ _ c => by cases c) (fun _ _ c => by cases c) rfl
      (fun i u h => .inl (act_setHandler _ b i u h)) (fun _ _ c => by cases c)
  | take k l now inl =>
    simp only [Net.step]
    split
    · exact M_none g _ r.1 rfl rfl rfl
    · rename_i m rest hc
      refine M_server g _ _ l _ (fun i j m' hm => ?_) rfl (fun i u d ho => ?_) (fun i m' ho hst => ?_) rfl
        (act_take _ k now m inl).1 (fun i m' ho hst => ((act_take _ k now m inl).2 i m' ho hst).2.2)
      · by_cases hk : i = k ∧ j = l
        · rw [hk.1, hk.2] at hm ⊢; simp only [upd2_same] at hm; rw [hc]; exact List.mem_cons_of_mem _ hm
        · simp only [upd2_ne _ _ hk] at hm; exact hm
      · obtain ⟨rfl, rfl, rfl⟩ := take_fine _ k now m inl _ ho
        exact ⟨m.now, g.calls i l m (by rw [hc]; simp)⟩
      · obtain ⟨hu, hd⟩ := take_fine _ k now m inl _ ho hst
        obtain ⟨e, he⟩ := ((act_take _ k now m inl).2 i m' ho hst).2.1
        refine ⟨h, _, [], rfl, .inr ⟨k, now, inl, e, rfl, hd, ?_⟩⟩
        simp only [hrr, Net.step, hc]
        exact (mem_server _ _ _ _).2 ⟨rfl, by rw [hu]; exact he⟩
  | submit l now u d =>
    refine M_server g _ r.1 l _ (fun _ _ _ h => h) rfl (fun i v e c => absurd c (submit_not_called _ now u d i v e)) (fun i m ho hst => ?_) rfl
      (fun i v h => .inl ((act_submit _ now u d).1 i v h)) (fun i m h _ => .inl ((act_submit _ now _ _).2 i m h))
    obtain ⟨hu, hd⟩ := submit_answer _ now u d i m ho
    exact ⟨h, _, [], rfl, .inl ⟨now, by rw [hu, hd]⟩⟩
  | hear k l =>
    simp only [Net.step]
    split
    · exact M_none g _ r.1 rfl rfl rfl
    · rename_i m rest hc
      refine M_client g _ _ k _ [.heard k l m] rfl (fun _ _ _ h => h) (fun i j m' hm => ?_) (fun _ _ c => by simp at c) (fun _ _ c => by simp at c) (fun i j m' hm => ?_)
      · by_cases hk : i = k ∧ j = l
        · rw [hk.1, hk.2] at hm ⊢; simp only [upd2_same] at hm; rw [hc]; exact List.mem_cons_of_mem _ hm
        · simp only [upd2_ne _ _ hk] at hm; exact hm
      · rw [List.mem_singleton] at hm
        cases hm
        rw [hc]; exact List.mem_cons_self

/-! ## How often the handler is called -/

def isCalled (i : Nat) (u : Uuid) : SOut → Bool
  | .called i' u' _ => i' == i && u' == u
  | _ => false

theorem isCalled_alive (s : Server) (now : Int) (v : Uuid) (d : Data) (i : Nat) (u : Uuid) : (s.submitAlive now v d).2.countP (isCalled i u) = 0 := by
  rw [List.countP_eq_zero]
  intro o ho hc
  cases o with
  | called i' u' d' =>
    rcases List.mem_append.1 ho with ho | ho
    · obtain ⟨x, _, he⟩ := List.mem_filterMap.1 ho
      unfold submitAnswer at he
      split at he <;> cases he
    · split at ho <;> simp at ho
  | _ => cases hc

theorem isCalled_inline (now : Int) (v : Uuid) (i : Nat) (u : Uuid) (l : List Data) (r : Server × List SOut) :
    (l.foldl (inlineStep now v) r).2.countP (isCalled i u) = r.2.countP (isCalled i u) := by
  induction l generalizing r with
  | nil => rfl
  | cons d l ih =>
    rw [List.foldl_cons, ih]
    simp only [inlineStep, List.countP_append, isCalled_alive, Nat.add_zero]

theorem isCalled_take (s : Server) (k : Nat) (now : Int) (m : Call) (inl : List Data) (i : Nat) (u : Uuid) :
    (s.take k now m inl).2.countP (isCalled i u) ≤ if k = i ∧ m.uuid = u then 1 else 0 := by
  unfold Server.take
  split
  · simp
  · split
    · simp
    · split
      · simp [isCalled]
      · split
        · simp [isCalled]
        · rw [isCalled_inline]
          by_cases h : k = i ∧ m.uuid = u
          · simp [h.1, h.2, isCalled]
          · rw [if_neg h]
            have : ¬ (isCalled i u (.called k m.uuid m.data) = true) := by simpa [isCalled] using h
            rw [List.countP_cons, if_neg this]
            simp

theorem isCalled_submit (s : Server) (now : Int) (v : Uuid) (d : Data) (i : Nat) (u : Uuid) : (s.submit now v d).2.countP (isCalled i u) = 0 := by
  rw [List.countP_eq_zero]
  intro o ho hc
  cases o with
  | called i' u' d' => exact submit_not_called s now v d i' u' d' ho
  | _ => cases hc

theorem calledN_server (i j k : Nat) (u : Uuid) (n : Net) (s : Server × List SOut) :
    calledN i j u (n.onServer k s).2 = if j = k then s.2.countP (isCalled i u) else 0 := by
  have e : (n.onServer k s).2 = s.2.map (.server k) := rfl
  rw [calledN, e, List.countP_map]
  split
  · rename_i hj
    congr 1
    funext o
    cases o <;> simp [calledFor, isCalled, hj]
  · rename_i hj
    rw [List.countP_eq_zero]
    intro o _
    have : ¬ k = j := fun c => hj c.symm
    cases o <;> simp [calledFor, this]

theorem calledN_client (i j k : Nat) (u : Uuid) (n : Net) (x : In) : calledN i j u (n.onClient k x).2 = 0 := by
  unfold calledN
  rw [List.countP_eq_zero, onClient_ev]
  intro e he
  rcases List.mem_cons.1 he with he | he
  · subst he; simp [calledFor]
  · obtain ⟨o, _, rfl⟩ := List.mem_map.1 he
    simp [calledFor]

theorem calledN_append (i j : Nat) (u : Uuid) (a b : List Ev) : calledN i j u (a ++ b) = calledN i j u a + calledN i j u b := List.countP_append

/-- The call `u` of client `i` on its way to server `j`, or handled. -/
def cal (i j : Nat) (u : Uuid) (r : NR) : Nat := callsN r.1 i j u + calledN i j u r.2

theorem cal_client {i j : Nat} {u : Uuid} {r : NR} (n : Net) (k : Nat) (x : In) (pre : List Ev) (hc : callsN n i j u ≤ callsN r.1 i j u) (hp : calledN i j u pre = 0) :
    cal i j u ((n.onClient k x).1, r.2 ++ (pre ++ (n.onClient k x).2)) ≤
      cal i j u r + (if k = i then (((n.clients k).step x).2.filterMap sentCall).countP (·.uuid == u) else 0) := by
  unfold cal
  rw [calledN_append, calledN_append, calledN_client, hp]
  unfold callsN at hc ⊢
  simp only [Net.onClient]
  by_cases hk : i = k ∧ n.opened k j = true
  · rw [if_pos hk, if_pos hk.1.symm, List.countP_append]
    omega
  · rw [if_neg hk]
    omega

theorem cal_server {i j : Nat} {u : Uuid} {r : NR} (n : Net) (k : Nat) (s : Server × List SOut)
    (hc : callsN n i j u + (if j = k then s.2.countP (isCalled i u) else 0) ≤ callsN r.1 i j u) :
    cal i j u ((n.onServer k s).1, r.2 ++ (n.onServer k s).2) ≤ cal i j u r := by
  unfold cal
  rw [calledN_append, calledN_server]
  have : callsN (n.onServer k s).1 i j u = callsN n i j u := rfl
  dsimp only
  omega

theorem cal_none {i j : Nat} {u : Uuid} {r : NR} (n : Net) (hc : n.calls = r.1.calls) : cal i j u (n, r.2 ++ []) ≤ cal i j u r := by
  unfold cal callsN
  simp only [List.append_nil, hc]
  exact Nat.le_refl _

theorem sends_once (c : Client) (x : In) (u : Uuid) : ((c.step x).2.filterMap sentCall).countP (·.uuid == u) ≤ (uuids [x]).count u := by
  cases x with
  | call now v ctx data t =>
    have : (c.step (.call now v ctx data t)).2.filterMap sentCall = [] ∨ (c.step (.call now v ctx data t)).2.filterMap sentCall = [⟨now, v, data⟩] := by
      unfold Client.step
      split
      · exact .inl rfl
      · simp only
        rcases call_cases c now v ctx data t with ⟨_, ec⟩ | ⟨_, ec⟩
        · rw [ec]
          left
          simp only
          split <;> simp [sentCall]
        · rw [ec]
          exact .inr (by simp [sentCall])
    rcases this with e | e <;> rw [e]
    · simp
    · by_cases h : v = u
      · simp [uuids, uuidOf, h]
      · simp [uuids, uuidOf, h]
  | _ =>
    have : ∀ y, uuidOf y = none → ((c.step y).2.filterMap sentCall).countP (·.uuid == u) = 0 := by
      intro y hy
      rw [List.countP_eq_zero]
      intro m hm
      have := sends_uuid _ _ m hm
      rw [hy] at this; cases this
    rw [this _ rfl]
    exact Nat.zero_le _

theorem cal_step {i j : Nat} {u : Uuid} {r : NR} (x : Act) (h : cal i j u r ≤ (uuids (inputs i r.2)).count u) :
    cal i j u (onAct r x) ≤ (uuids (inputs i (onAct r x).2)).count u := by
  have grow : ∀ t, (uuids (inputs i r.2)).count u ≤ (uuids (inputs i (r.2 ++ t))).count u := by
    intro t
    rw [inputs_append, uuids_append, List.count_append]
    omega
  have cl : ∀ (n : Net) (k : Nat) (y : In) (pre : List Ev), callsN n i j u ≤ callsN r.1 i j u → calledN i j u pre = 0 → inputs i pre = [] →
      cal i j u ((n.onClient k y).1, r.2 ++ (pre ++ (n.onClient k y).2)) ≤ (uuids (inputs i (r.2 ++ (pre ++ (n.onClient k y).2)))).count u := by
    intro n k y pre hc hp hi
    have := cal_client (r := r) n k y pre hc hp
    rw [inputs_append, inputs_append, hi, List.nil_append, inputs_onClient, uuids_append, List.count_append]
    split at this
    · rename_i hk
      have := sends_once (n.clients k) y u
      simp only [hk, if_true]
      simp only [hk] at this
      subst hk
      omega
    · omega
  unfold onAct
  cases x with
  | client k y =>
    simp only [Net.step]
    split
    · exact cl r.1 k y [] (Nat.le_refl _) rfl rfl
    · exact Nat.le_trans (cal_none _ rfl) (Nat.le_trans h (grow _))
  | meet k l =>
    exact Nat.le_trans (cal_server r.1 l ((r.1.servers l).meet k, []) (by simp)) (Nat.le_trans h (grow _))
  | enroll k l =>
    exact Nat.le_trans (cal_server r.1 l ((r.1.servers l).enroll k, []) (by simp)) (Nat.le_trans h (grow _))
  | «open» k l =>
    simp only [Net.step]
    split
    · exact Nat.le_trans (cal_none _ rfl) (Nat.le_trans h (grow _))
    · exact Nat.le_trans (cal_none _ rfl) (Nat.le_trans h (grow _))
  | find k l =>
    simp only [Net.step]
    split
    · exact cl _ k _ [] (Nat.le_refl _) rfl rfl
    · exact Nat.le_trans (cal_none _ rfl) (Nat.le_trans h (grow _))
  | part k l =>
    simp only [Net.step]
    split
    · refine cl _ k _ [] ?_ rfl rfl
      unfold callsN
      by_cases hk : i = k ∧ j = l
      · rw [hk.1, hk.2]; simp [upd2_same]
      · simp only [upd2_ne _ _ hk]; exact Nat.le_refl _
    · exact Nat.le_trans (cal_none _ rfl) (Nat.le_trans h (grow _))
  | setHandler l b =>
    exact Nat.le_trans (cal_server r.1 l ((r.1.servers l).setHandler b, []) (by simp)) (Nat.le_trans h (grow _))
  | take k l now inl =>
    simp only [Net.step]
    split
    · exact Nat.le_trans (cal_none _ rfl) (Nat.le_trans h (grow _))
    · rename_i m rest hc
      refine Nat.le_trans (cal_server _ l _ ?_) (Nat.le_trans h (grow _))
      have ht := isCalled_take (r.1.servers l) k now m inl i u
      unfold callsN
      by_cases hk : i = k ∧ j = l
      · rw [hk.1, hk.2, if_pos rfl]
        rw [hk.1] at ht
        simp only [upd2_same, hc, List.countP_cons]
        simp only [true_and] at ht
        by_cases hm : m.uuid = u
        · simp only [hm, if_true, beq_self_eq_true] at ht ⊢; omega
        · rw [if_neg hm] at ht; omega
      · simp only [upd2_ne _ _ hk]
        split
        · rename_i hj
          rw [if_neg (fun c => hk ⟨c.1.symm, hj⟩)] at ht
          omega
        · omega
  | submit l now v d =>
    refine Nat.le_trans (cal_server r.1 l _ ?_) (Nat.le_trans h (grow _))
    rw [isCalled_submit]; simp
  | hear k l =>
    simp only [Net.step]
    split
    · exact Nat.le_trans (cal_none _ rfl) (Nat.le_trans h (grow _))
    · exact cl _ k _ [.heard k l _] (Nat.le_refl _) rfl rfl

theorem net_cal (i j : Nat) (u : Uuid) (h : List Act) : cal i j u (net h) ≤ (uuids (inputs i (net h).2)).count u := by
  refine act_induction (P := fun h => cal i j u (net h) ≤ (uuids (inputs i (net h).2)).count u) (Nat.zero_le _) (fun l x ih => ?_) h
  rw [net_snoc]
  exact cal_step x ih

theorem net_M (h : List Act) : M h (net h) := by
  refine act_induction (P := fun h => M h (net h)) ?_ (fun l x ih => ?_) h
  · refine ⟨fun i j m hm => ?_, fun _ _ _ _ h => ?_, fun i j m hm => ?_, fun _ _ _ h => ?_, fun _ _ _ h _ => ?_, fun j i u h => ?_, fun _ _ _ h _ => ?_, fun _ _ h => ?_⟩
    · cases hm
    · cases h
    · cases hm
    · cases h
    · cases h
    · obtain ⟨n, hn, _⟩ := h
      cases hn
    · cases h
    · cases h
  · rw [net_snoc]
    exact M_step ih x

end SilKit.Rpc
