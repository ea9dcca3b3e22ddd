import Verif.Lemmas.RpcData
/-!
# A call and all servers
-/
namespace SilKit.Rpc
open Spec

theorem servers_count (i j : Nat) (u : Uuid) (t : List Ev) : ((replies i u t).map (·.1)).count j = (repliesFrom i j u t).length := by
  rw [repliesFrom_eq, List.length_map, List.count, List.countP_map, List.countP_eq_length_filter]
  rfl

theorem replies_nil {i : Nat} {u : Uuid} {t : List Ev} (h : ∀ j, repliesFrom i j u t = []) : replies i u t = [] := by
  cases hr : replies i u t with
  | nil => rfl
  | cons p l =>
    have := servers_count i p.1 u t
    rw [h p.1, hr] at this
    simp at this

theorem local_call (now : Int) (u : Uuid) (ctx : Ctx) (data : Data) (t : Option Int) : (In.call now u ctx data t).isLocal = true := rfl

theorem call_ev (i : Nat) (a : List Act) (now : Int) (u : Uuid) (ctx : Ctx) (data : Data) (t : Option Int) :
    inputs i (net (a ++ [.client i (.call now u ctx data t)])).2 = inputs i (net a).2 ++ [.call now u ctx data t] := by
  rw [net_snoc]
  simp only [onAct, Net.step, local_call, if_true, inputs_append, inputs_onClient]

theorem call_split (i : Nat) (a b : List Act) (now : Int) (u : Uuid) (ctx : Ctx) (data : Data) (t : Option Int) :
    ∃ T, (net (a ++ .client i (.call now u ctx data t) :: b)).2 = (net (a ++ [.client i (.call now u ctx data t)])).2 ++ T ∧
      inputs i (net (a ++ .client i (.call now u ctx data t) :: b)).2 = inputs i (net a).2 ++ .call now u ctx data t :: inputs i T := by
  obtain ⟨T, hT⟩ := net_prefix (a ++ [.client i (.call now u ctx data t)]) b
  have e : a ++ .client i (.call now u ctx data t) :: b = (a ++ [.client i (.call now u ctx data t)]) ++ b := by simp
  refine ⟨T, by rw [e, hT], ?_⟩
  rw [e, ← hT, inputs_append, call_ev]
  simp

theorem call_tok {i : Nat} {a : List Act} {now : Int} {u : Uuid} {ctx : Ctx} {data : Data} {t : Option Int} (j : Nat)
    (hub : (solo (inputs i (net a).2)).1.ub = false) (hk : (solo (inputs i (net a).2)).1.known ≠ 0) (hu : u ∉ uuids (inputs i (net a).2))
    (hs : ∀ j, ((net a).1.servers j).ub = false) :
    tok i j u (net (a ++ [.client i (.call now u ctx data t)])) = if (net a).1.opened i j = true then 1 else 0 := by
  rw [net_snoc, (tok_step (net_N a) _).2 hs (by simp), tok_zero i j u a hu, Nat.zero_add]
  simp only [newN, true_and]
  have e : (List.filterMap sentCall (((net a).1.clients i).step (.call now u ctx data t)).2).countP (·.uuid == u) = 1 := by
    rw [net_client]
    simp only [Client.step, hub, Bool.false_eq_true, if_false, Client.call, if_neg hk]
    simp [sentCall]
  rw [e]

theorem call_mute {i : Nat} {a : List Act} {now : Int} {u : Uuid} {ctx : Ctx} {data : Data} {t : Option Int} (j : Nat)
    (hub : (solo (inputs i (net a).2)).1.ub = false) (hk : (solo (inputs i (net a).2)).1.known = 0) (hu : u ∉ uuids (inputs i (net a).2))
    (hs : ∀ j, ((net a).1.servers j).ub = false) :
    tok i j u (net (a ++ [.client i (.call now u ctx data t)])) = 0 := by
  rw [net_snoc, (tok_step (net_N a) _).2 hs (by simp), tok_zero i j u a hu, Nat.zero_add]
  simp only [newN, true_and]
  have e : (List.filterMap sentCall (((net a).1.clients i).step (.call now u ctx data t)).2).countP (·.uuid == u) = 0 := by
    rw [net_client]
    simp only [Client.step, hub, Bool.false_eq_true, if_false, Client.call, if_pos hk]
    split <;> simp [sentCall]
  rw [e]
  split <;> rfl

theorem known_pos {h : List In} {n : Nat} (hub : (solo h).1.ub = false) (hn0 : 0 < n) (hn : n < 2 ^ 31) (hk : knownCount h = n) : (solo h).1.known ≠ 0 := by
  have := (solo_G h hub).known
  rw [hk] at this
  omega

theorem known_zero {h : List In} (hub : (solo h).1.ub = false) (hk : knownCount h = 0) : (solo h).1.known = 0 := by
  have := (solo_G h hub).known
  rw [hk] at this
  omega

theorem solo_ub_prefix {a b : List In} (h : (solo (a ++ b)).1.ub = false) : (solo a).1.ub = false := by
  unfold solo at h ⊢
  rw [List.foldl_append] at h
  exact foldl_ub_prefix h

theorem net_ub_prefix {a b : List Act} (h : ∀ j, Ev.server j .ub ∉ (net (a ++ b)).2) (j : Nat) : ((net a).1.servers j).ub = false := by
  cases hb : ((net a).1.servers j).ub with
  | false => rfl
  | true =>
    exfalso
    obtain ⟨T, hT⟩ := net_prefix a b
    refine h j ?_
    rw [← hT]
    exact List.mem_append_left _ ((net_srvub a j).1 hb)

/-- The servers that answer are those that receive the call. -/
theorem replies_opened {i : Nat} {a b : List Act} {now : Int} {u : Uuid} {ctx : Ctx} {data : Data} {t : Option Int} {n : Nat} {O : List Nat}
    (hn0 : 0 < n) (hn : n < 2 ^ 31) (hk : knownCount (inputs i (net a).2) = n) (hO : O.Nodup) (hm : ∀ j, j ∈ O ↔ (net a).1.opened i j = true)
    (hub : (solo (inputs i (net a).2)).1.ub = false) (hsu : ∀ j, Ev.server j .ub ∉ (net (a ++ .client i (.call now u ctx data t) :: b)).2)
    (hp : ∀ j, Act.part i j ∉ b) (hu : (uuids (inputs i (net (a ++ .client i (.call now u ctx data t) :: b)).2)).Nodup)
    (hs : Settled (net (a ++ .client i (.call now u ctx data t) :: b)).1 i u) :
    ((replies i u (net (a ++ .client i (.call now u ctx data t) :: b)).2).map (·.1)).Perm O := by
  obtain ⟨T, hT, hin⟩ := call_split i a b now u ctx data t
  rw [hin, uuids_append] at hu
  have huu : uuids (.call now u ctx data t :: inputs i T) = u :: uuids (inputs i T) := rfl
  rw [huu, List.nodup_append, List.nodup_cons] at hu
  have hua : u ∉ uuids (inputs i (net a).2) := fun c => hu.2.2 u c u (by simp) rfl
  rw [List.perm_iff_count]
  intro j
  rw [servers_count, ← tok_settled hs]
  have e : a ++ .client i (.call now u ctx data t) :: b = (a ++ [.client i (.call now u ctx data t)]) ++ b := by simp
  rw [e] at hsu hT ⊢
  rw [tok_const i j u _ b hsu (hp j) (fun T' hT' => ?_), call_tok j hub (known_pos hub hn0 hn hk) hua (net_ub_prefix (b := .client i (.call now u ctx data t) :: b) (by rw [e]; exact hsu))]
  · rw [hO.count]
    simp only [hm]
  · rw [hT, List.append_cancel_left_eq] at hT'
    rw [← hT']
    exact hu.2.1.1

/-- Without known servers, the call reaches nobody. -/
theorem replies_none {i : Nat} {a b : List Act} {now : Int} {u : Uuid} {ctx : Ctx} {data : Data} {t : Option Int}
    (hk : knownCount (inputs i (net a).2) = 0)
    (hub : (solo (inputs i (net a).2)).1.ub = false) (hsu : ∀ j, Ev.server j .ub ∉ (net (a ++ .client i (.call now u ctx data t) :: b)).2)
    (hp : ∀ j, Act.part i j ∉ b) (hu : (uuids (inputs i (net (a ++ .client i (.call now u ctx data t) :: b)).2)).Nodup) :
    replies i u (net (a ++ .client i (.call now u ctx data t) :: b)).2 = [] := by
  obtain ⟨T, hT, hin⟩ := call_split i a b now u ctx data t
  rw [hin, uuids_append] at hu
  have huu : uuids (.call now u ctx data t :: inputs i T) = u :: uuids (inputs i T) := rfl
  rw [huu, List.nodup_append, List.nodup_cons] at hu
  have hua : u ∉ uuids (inputs i (net a).2) := fun c => hu.2.2 u c u (by simp) rfl
  have e : a ++ .client i (.call now u ctx data t) :: b = (a ++ [.client i (.call now u ctx data t)]) ++ b := by simp
  refine replies_nil fun j => ?_
  rw [e] at hsu hT ⊢
  have h1 := tok_const i j u _ b hsu (hp j) (fun T' hT' => by
    rw [hT, List.append_cancel_left_eq] at hT'
    rw [← hT']
    exact hu.2.1.1)
  rw [call_mute j hub (known_zero hub hk) hua (net_ub_prefix (b := .client i (.call now u ctx data t) :: b) (by rw [e]; exact hsu))] at h1
  unfold tok at h1
  exact List.length_eq_zero_iff.1 (by omega)

/-- The responses to a call come after it. -/
theorem answers_after {i : Nat} {a b : List Act} {now : Int} {u : Uuid} {ctx : Ctx} {data : Data} {t : Option Int} (hu : u ∉ uuids (inputs i (net a).2))
    {L : List In} (hin : inputs i (net (a ++ .client i (.call now u ctx data t) :: b)).2 = inputs i (net a).2 ++ .call now u ctx data t :: L) :
    answers u L = (replies i u (net (a ++ .client i (.call now u ctx data t) :: b)).2).map (·.2) := by
  have h1 : answers u (inputs i (net a).2) = [] := by
    rw [answers_replies, replies_nil (fun j => ?_)]
    · rfl
    · have := tok_zero i j u a hu
      unfold tok at this
      exact List.length_eq_zero_iff.1 (by omega)
  rw [← answers_replies, hin]
  have : ∀ x y : List In, answers u (x ++ y) = answers u x ++ answers u y := fun _ _ => List.filterMap_append
  rw [this, h1]
  rfl

theorem found_le {i : Nat} {h : List Act} {S O : List Nat} (hS : S.Nodup) (hSm : ∀ j, j ∈ S ↔ (net h).1.found i j = true) (hOm : ∀ j, j ∈ O ↔ (net h).1.opened i j = true) :
    S.length ≤ O.length :=
  hS.length_le_of_subset fun j hj => (hOm j).2 ((net_N h).fnd i j ((hSm j).1 hj))

/-! ## `SubmitResult` -/

theorem filterMap_inj {α β : Type} {f : α → Option β} {l : List α} (hn : (l.filterMap f).Nodup) {x y : α} (hx : x ∈ l) (hy : y ∈ l) {z : β}
    (hfx : f x = some z) (hfy : f y = some z) : x = y := by
  induction l with
  | nil => cases hx
  | cons e l ih =>
    cases he : f e with
    | none =>
      rw [List.filterMap_cons_none he] at hn
      rcases List.mem_cons.1 hx with rfl | hx
      · rw [he] at hfx; cases hfx
      · rcases List.mem_cons.1 hy with rfl | hy
        · rw [he] at hfy; cases hfy
        · exact ih hn hx hy
    | some w =>
      rw [List.filterMap_cons_some he, List.nodup_cons] at hn
      have no : ∀ k ∈ l, f k ≠ some w := fun k hk c => hn.1 (List.mem_filterMap.2 ⟨k, hk, c⟩)
      rcases List.mem_cons.1 hx with rfl | hx
      · rcases List.mem_cons.1 hy with rfl | hy
        · rfl
        · rw [he] at hfx; cases hfx; exact absurd hfy (no y hy)
      · rcases List.mem_cons.1 hy with hye | hy
        · rw [hye, he] at hfy; cases hfy; exact absurd hfx (no x hx)
        · exact ih hn.2 hx hy

/-- A call is with the internal server for its own client. -/
theorem act_owner {h : List Act} (hn : (allUuids (net h).2).Nodup) {j j' i i' : Nat} {u : Uuid} (h1 : Act' ((net h).1.servers j) i u)
    (h2 : Act' ((net h).1.servers j') i' u) : i = i' := by
  have ow : ∀ j i, Act' ((net h).1.servers j) i u → ∃ x, Ev.input i x ∈ (net h).2 ∧ uuidOf x = some u := by
    intro j i ha
    obtain ⟨d, hd⟩ := (net_M h).active j i u ha
    obtain ⟨now, hs⟩ := (net_M h).called j i u d hd
    obtain ⟨ctx, t, hi⟩ := (net_M h).sent i _ hs
    exact ⟨_, hi, rfl⟩
  obtain ⟨x, hx, hxu⟩ := ow j i h1
  obtain ⟨y, hy, hyu⟩ := ow j' i' h2
  have := filterMap_inj (f := uuidOfEv) hn hx hy (z := u) hxu hyu
  injection this

theorem filterMap_one {l : List (Nat × Inner)} (hk : (l.map (·.1)).Nodup) {i : Nat} {n : Inner} (hm : (i, n) ∈ l) (he : n.enrolled = true) {u : Uuid}
    (hu : u ∈ n.active) (ho : ∀ e ∈ l, u ∈ e.2.active → e.1 = i) (now : Int) (d : Data) :
    l.filterMap (submitAnswer now u d) = [.answer i ⟨now, u, d, .success⟩] := by
  induction l with
  | nil => cases hm
  | cons e l ih =>
    rw [List.map_cons, List.nodup_cons] at hk
    rcases List.mem_cons.1 hm with rfl | hm
    · rw [List.filterMap_cons_some (b := .answer i ⟨now, u, d, .success⟩) (by simp [submitAnswer, he, hu])]
      congr 1
      rw [List.filterMap_eq_nil_iff]
      intro e' he'
      unfold submitAnswer
      rw [if_neg]
      rintro ⟨_, h2⟩
      have := ho e' (List.mem_cons_of_mem _ he') h2
      exact hk.1 (List.mem_map.2 ⟨e', he', this⟩)
    · rw [List.filterMap_cons_none, ih hk.2 hm fun e' he' => ho e' (List.mem_cons_of_mem _ he')]
      unfold submitAnswer
      rw [if_neg]
      rintro ⟨_, h2⟩
      have := ho e (by simp) h2
      exact hk.1 (List.mem_map.2 ⟨(i, n), hm, this.symm⟩)

theorem submit_one {h : List Act} {j i : Nat} {u : Uuid} {m : Inner} (hn : (allUuids (net h).2).Nodup) (hub : Ev.server j .ub ∉ (net h).2)
    (hi : (i, m) ∈ ((net h).1.servers j).inner) (he : m.enrolled = true) (hu : u ∈ m.active) (now : Int) (d : Data) :
    (net (h ++ [.submit j now u d])).2 = (net h).2 ++ [.server j (.answer i ⟨now, u, d, .success⟩)] := by
  rw [net_snoc]
  have hb : ((net h).1.servers j).ub = false := by
    cases hb : ((net h).1.servers j).ub with
    | false => rfl
    | true => exact absurd ((net_srvub h j).1 hb) hub
  have hal : ((net h).1.servers j).alive u = true := by
    unfold Server.alive
    rw [List.any_eq_true]
    exact ⟨_, hi, by simpa using hu⟩
  have hf := filterMap_one ((net_N h).wf j).keys hi he hu (fun e' he' hu' => act_owner hn ⟨e'.2, he', hu'⟩ ⟨m, hi, hu⟩) now d
  simp [onAct, Net.step, Net.onServer, Server.submit, hb, hal, Server.submitAlive, hf]

end SilKit.Rpc
