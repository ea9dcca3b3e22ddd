import Verif.Lemmas.RpcAll
/-!
# Remote procedure calls (C34)

`solo h` is a client to which `h` happens, with all it does; `net h` is a network of clients and servers in which `h` happens, with all that happens.
`results ctx` are the results that the user gets with the user context `ctx`.
-/
namespace SilKit.Props
open SilKit.Rpc SilKit.Rpc.Spec

variable {a b : List In} {u : Uuid} {ctx : Ctx} {n : Nat} {now : Int} {data : Data}

/-! ## One client -/

/-- A call without known servers has exactly one result: there is no server. -/
theorem rpc_not_reachable {t : Option Int} (c : Case a u ctx b) (hk : knownCount a = 0) (hs : Serial (a ++ .call now u ctx data t :: b))
    (hub : Out.ub ∉ (solo (a ++ .call now u ctx data t :: b)).2) :
    results ctx (solo (a ++ .call now u ctx data t :: b)).2 = [⟨now, ctx, .serverNotReachable, []⟩] := by
  have e : a ++ In.call now u ctx data t :: b = (a ++ [.call now u ctx data t]) ++ b := by simp
  have hb := ub_false_of hub
  have c0 : Case a u ctx [] := ⟨c.freshA, by simp [uuids], c.ctxA, by simp [ctxs], fun h => c.handler (by simp at h ⊢; exact .inl h)⟩
  rw [e] at hs hb ⊢
  have hb0 : (solo (a ++ [.call now u ctx data t])).1.ub = false := by
    unfold solo at hb ⊢
    rw [List.foldl_append] at hb
    exact foldl_ub_prefix hb
  refine (P2_run b (P2_start c0 hk (serial_prefix (serial_prefix hs)) hb0) (fun b' r g hp => ?_) hs c.freshB c.ctxB hb).res
  have c' : Case a u ctx b' := by
    obtain ⟨tl, rfl⟩ := hp
    refine ⟨c.freshA, fun h => c.freshB ?_, c.ctxA, fun h => c.ctxB ?_, fun h => c.handler ?_⟩
    · rw [uuids_append]; exact List.mem_append_left _ h
    · unfold ctxs; rw [List.filterMap_append]; exact List.mem_append_left _ h
    · rw [← List.append_assoc]; exact List.mem_append_left _ h
  exact c'.alone (now := now) (data := data) (t := t) (by simpa using g)

/-- A call with `n` known servers: the results are the first `n` responses to it, in the order of their arrival, each with the user context of the
call, as long as the time that was given for the call has not passed. -/
theorem rpc_results_partial {t : Option Int} (c : Case a u ctx b) (hn0 : 0 < n) (hn : n < 2 ^ 31) (hk : knownCount a = n)
    (hs : Serial (a ++ .call now u ctx data t :: b)) (ht : ∀ t', t = some t' → ¬ Expired t' b)
    (hub : Out.ub ∉ (solo (a ++ .call now u ctx data t :: b)).2) :
    results ctx (solo (a ++ .call now u ctx data t :: b)).2 = ((answers u b).take n).map (asResult ctx) :=
  (P1_run hn0 hn hk b c hs ht (ub_false_of hub)).res

/-- If the time passes before there are `n` responses, a result that tells so follows the results so far. It is the last one, whatever happens
later. -/
theorem rpc_timeout_partial {t : Int} {now' : Int} {d : Nat} {e : List In} (c : Case a u ctx (b ++ .tick now' d :: e)) (hn : n < 2 ^ 31)
    (hk : knownCount a = n) (hs : Serial (a ++ .call now u ctx data (some t) :: (b ++ .tick now' d :: e))) (hl : (answers u b).length < n)
    (ht : ¬ Expired t b) (hx : Expired t (b ++ [.tick now' d])) (hu : (uuids (a ++ b)).Nodup)
    (hub : Out.ub ∉ (solo (a ++ .call now u ctx data (some t) :: (b ++ .tick now' d :: e))).2) :
    results ctx (solo (a ++ .call now u ctx data (some t) :: (b ++ .tick now' d :: e))).2 =
      (answers u b).map (asResult ctx) ++ [⟨now', ctx, .timeout, []⟩] := by
  have hn0 : 0 < n := by omega
  have eq : a ++ In.call now u ctx data (some t) :: (b ++ .tick now' d :: e) = (a ++ .call now u ctx data (some t) :: b ++ [.tick now' d]) ++ e := by simp
  have hb := ub_false_of hub
  rw [eq] at hs hb ⊢
  have cut : ∀ b' tl, b' ++ tl = b ++ .tick now' d :: e → Case a u ctx b' := by
    intro b' tl ht
    rw [← ht] at c
    refine ⟨c.freshA, fun h => c.freshB ?_, c.ctxA, fun h => c.ctxB ?_, fun h => c.handler ?_⟩
    · rw [uuids_append]; exact List.mem_append_left _ h
    · unfold ctxs; rw [List.filterMap_append]; exact List.mem_append_left _ h
    · rw [← List.append_assoc]; exact List.mem_append_left _ h
  have hb1 : (solo (a ++ .call now u ctx data (some t) :: b ++ [.tick now' d])).1.ub = false := by
    unfold solo at hb ⊢
    rw [List.foldl_append] at hb
    exact foldl_ub_prefix hb
  have hs1 := serial_prefix hs
  rw [solo_snoc] at hb1
  have hp := ub_prefix hb1
  have p := P1_run hn0 hn hk b (cut b _ rfl) (serial_prefix hs1) (fun t' h => by cases h; exact ht) hp
  have g := solo_G _ hp
  have s := solo_S _ hp
  have idle := s.idle (serial_idle hs1 (.inr ⟨now', d, rfl⟩))
  have hne : (solo (a ++ .call now u ctx data (some t) :: b)).1.cur ≠ some u := by rw [idle]; simp
  have hf := p.free hne
  rw [if_pos hl] at hf
  have al := (cut b _ rfl).alone g
  have hd : u ∈ due (solo (a ++ .call now u ctx data (some t) :: b)).1.timeouts d := by
    rw [mem_due, p.tmo]
    refine ⟨(t - elapsed b, u), by simp, ?_⟩
    have := hx.2
    rw [elapsed_snoc] at this
    simp only [durOf] at this
    omega
  have hnd : (uuids (a ++ .call now u ctx data (some t) :: b)).Nodup := by
    rw [uuids_append] at hu ⊢
    have : uuids (.call now u ctx data (some t) :: b) = u :: uuids b := rfl
    rw [this, (List.perm_middle (a := u) (l₁ := uuids a) (l₂ := uuids b)).nodup_iff, List.nodup_cons]
    refine ⟨?_, hu⟩
    rw [List.mem_append]
    exact fun h => h.elim c.freshA (cut b _ rfl).freshB
  obtain ⟨h1, h2, h3, h4⟩ := tick_now al hd (g.nodup hnd) hf rfl hb1
  have p2 : P2 u ctx ((answers u b).map (asResult ctx) ++ [⟨now', ctx, .timeout, []⟩]) (solo (a ++ .call now u ctx data (some t) :: b ++ [.tick now' d])) := by
    rw [solo_snoc]
    refine ⟨by rw [h3]; exact hne, h1, ?_, ?_⟩
    · rw [h2, p.res, List.take_of_length_le (by omega)]
    · rw [h4, mine_rest, p.tmo]
      have := hx.2
      rw [elapsed_snoc] at this
      simp only [durOf] at this
      have : t - (elapsed b : Int) - d ≤ 0 := by omega
      simp [shorten, this]
  have ce : Case a u ctx ((b ++ [.tick now' d]) ++ e) := by
    have : (b ++ [In.tick now' d]) ++ e = b ++ .tick now' d :: e := by simp
    rw [this]; exact c
  refine (P2_run e p2 (fun e' r g' hpre => ?_) hs (fun h => ce.freshB ?_) (fun h => ce.ctxB ?_) hb).res
  · obtain ⟨tl, rfl⟩ := hpre
    refine (cut (b ++ .tick now' d :: e') tl (by simp)).alone (now := now) (data := data) (t := some t) ?_
    simpa using g'
  · rw [uuids_append]; exact List.mem_append_right _ h
  · unfold ctxs; rw [List.filterMap_append]; exact List.mem_append_right _ h

/-- A call with known servers is sent, once, with its data. -/
theorem rpc_sent {t : Option Int} (hn0 : 0 < n) (hn : n < 2 ^ 31) (hk : knownCount a = n) (hub : Out.ub ∉ (solo a).2) :
    sentCalls (solo (a ++ [.call now u ctx data t])).2 = sentCalls (solo a).2 ++ [⟨now, u, data⟩] := by
  have hb := ub_false_of hub
  rw [solo_snoc]
  simp only [onInput, Client.step, hb, Bool.false_eq_true, if_false, Client.call, if_neg (known_pos hb hn0 hn hk), sentCalls, List.filterMap_append]
  rfl

/-- Results come with the user context of some call that was made. -/
theorem rpc_results_belong (h : List In) (hub : Out.ub ∉ (solo h).2) (hc : ctx ∉ ctxs h) : results ctx (solo h).2 = [] := solo_ctx h (ub_false_of hub) hc

/-- Without timeouts, and with messages that are handled one after the other, there is no undefined behaviour, whatever else happens. -/
theorem rpc_no_ub (h : List In) (hs : Serial h) (ht : ∀ x ∈ h, timeless x = true) : Out.ub ∉ (solo h).2 := by
  rw [← solo_vis]
  have key : Serial h → (∀ x ∈ h, timeless x = true) → (solo h).1.ub = false ∧ (solo h).1.timeouts = [] := by
    refine snoc_induction (P := fun h => Serial h → (∀ x ∈ h, timeless x = true) → (solo h).1.ub = false ∧ (solo h).1.timeouts = []) (fun _ _ => ⟨rfl, rfl⟩)
      (fun l x ih hs ht => ?_) h
    obtain ⟨h1, h2⟩ := ih (serial_prefix hs) fun y hy => ht y (List.mem_append_left _ hy)
    have s := solo_S l h1
    have htx := ht x (by simp)
    rw [solo_snoc]
    cases x with
    | found => simp [onInput, Client.step, h1, h2]
    | lost => simp [onInput, Client.step, h1, h2]
    | setHandler b => simp [onInput, Client.step, h1, h2]
    | call now u ctx data t =>
      cases t with
      | some t => cases htx
      | none =>
        simp only [onInput, Client.step, h1, Bool.false_eq_true, if_false, Client.call]
        split
        · exact ⟨h1, h2⟩
        · exact ⟨rfl, h2⟩
    | hear m =>
      simp only [onInput, Client.step, h1, Bool.false_eq_true, if_false]
      rcases hear_cases (solo l).1 m with ⟨_, ec⟩ | ⟨i, _, ec⟩ <;> rw [ec] <;> exact ⟨h1, h2⟩
    | done =>
      simp only [onInput, Client.step, h1, Bool.false_eq_true, if_false]
      rcases done_cases (solo l).1 with ⟨_, ec⟩ | ⟨u, hu, ⟨hn, ec⟩ | ⟨i, hi, ⟨_, ec⟩ | ⟨_, ec⟩⟩⟩
      · rw [ec]; exact ⟨h1, h2⟩
      · obtain ⟨i, hi⟩ := s.cur (serial_prefix hs) u hu
        rw [hi] at hn; cases hn
      · rw [ec]; exact ⟨h1, h2⟩
      · rw [ec]; exact ⟨h1, h2⟩
    | tick now d =>
      simp only [onInput, Client.step, h1, Bool.false_eq_true, if_false, Client.tick, h2, List.map_nil, List.filter_nil, List.foldl_nil]
      exact ⟨trivial, trivial⟩
  rw [(key hs ht).1]
  simp

/-- So without timeouts nothing is left open: the results of a call with `n` known servers are the first `n` responses. -/
theorem rpc_results_timeless (c : Case a u ctx b) (hn0 : 0 < n) (hn : n < 2 ^ 31) (hk : knownCount a = n) (hs : Serial (a ++ .call now u ctx data none :: b))
    (ht : ∀ x ∈ a ++ b, timeless x = true) :
    results ctx (solo (a ++ .call now u ctx data none :: b)).2 = ((answers u b).take n).map (asResult ctx) := by
  refine rpc_results_partial c hn0 hn hk hs (fun _ h => by cases h) (rpc_no_ub _ hs fun x hx => ?_)
  simp only [List.mem_append, List.mem_cons] at hx
  rcases hx with h | rfl | h
  · exact ht x (by simp [h])
  · rfl
  · exact ht x (by simp [h])

/-- But if a call with a timeout is answered in time, undefined behaviour follows as soon as the time has passed: the entry for the timeout is still
there, and is used to look up a call that is not. -/
theorem rpc_timeout_after_results {t : Int} {now' : Int} {d : Nat} (c : Case a u ctx b) (hn0 : 0 < n) (hn : n < 2 ^ 31)
    (hk : knownCount a = n) (hs : Serial (a ++ .call now u ctx data (some t) :: b ++ [.tick now' d])) (hl : n ≤ (answers u b).length)
    (ht : ¬ Expired t b) (hx : Expired t (b ++ [.tick now' d])) :
    Out.ub ∈ (solo (a ++ .call now u ctx data (some t) :: b ++ [.tick now' d])).2 := by
  rw [← solo_vis]
  cases hb : (solo (a ++ .call now u ctx data (some t) :: b ++ [.tick now' d])).1.ub with
  | true => rfl
  | false =>
    exfalso
    rw [solo_snoc] at hb
    have hp := ub_prefix hb
    have p := P1_run hn0 hn hk b c (serial_prefix hs) (fun t' h => by cases h; exact ht) hp
    have s := solo_S _ hp
    have idle := s.idle (serial_idle hs (.inr ⟨now', d, rfl⟩))
    have hf := p.free (by rw [idle]; simp)
    rw [if_neg (by omega)] at hf
    have hd : u ∈ due (solo (a ++ .call now u ctx data (some t) :: b)).1.timeouts d := by
      rw [mem_due, p.tmo]
      refine ⟨(t - elapsed b, u), by simp, ?_⟩
      have := hx.2
      rw [elapsed_snoc] at this
      simp only [durOf] at this
      omega
    rw [onInput_tick hp] at hb
    have := fold_expire_dead (now := now') (r := ({ (solo (a ++ .call now u ctx data (some t) :: b)).1 with timeouts := rest (solo (a ++ .call now u ctx data (some t) :: b)).1.timeouts d },
      (solo (a ++ .call now u ctx data (some t) :: b)).2)) hd hf
    rw [this] at hb
    cases hb

/-! Non-vacuity: a call with two known servers, and other calls around it. The time passes after one response. -/

def exA : List In := [.found, .call 1 10 100 [7] none, .found, .hear ⟨2, 10, [1], .success⟩, .done]
def exB : List In := [.call 4 12 102 [] none, .hear ⟨5, 11, [2], .success⟩, .setHandler true, .done, .tick 6 3, .hear ⟨6, 12, [], .other⟩, .done]

example : Case exA 11 101 exB ∧ Serial (exA ++ .call 3 11 101 [9] (some 5) :: (exB ++ .tick 7 2 :: [.hear ⟨8, 11, [], .success⟩, .done])) ∧
    knownCount exA = 2 ∧ (answers 11 exB).length < 2 ∧ (uuids (exA ++ exB)).Nodup ∧
    Out.ub ∉ (solo (exA ++ .call 3 11 101 [9] (some 5) :: (exB ++ .tick 7 2 :: [.hear ⟨8, 11, [], .success⟩, .done]))).2 ∧
    results 101 (solo (exA ++ .call 3 11 101 [9] (some 5) :: (exB ++ .tick 7 2 :: [.hear ⟨8, 11, [], .success⟩, .done]))).2 =
      [⟨5, 101, .success, [2]⟩, ⟨7, 101, .timeout, []⟩] :=
  ⟨⟨by decide, by decide, by decide, by decide, by decide⟩, by unfold Serial; decide +kernel, by decide, by decide, by decide, by decide +kernel, by decide +kernel⟩

example : ¬ Expired 5 exB ∧ Expired 5 (exB ++ [.tick 7 2]) :=
  ⟨fun h => absurd h.2 (by decide), ⟨.tick 7 2, by decide, rfl⟩, by decide⟩

/-- A call is answered and then times out: the user gets the result, and then undefined behaviour. -/
example : (solo [.found, .call 1 1 1 [7] (some 5), .hear ⟨2, 1, [8], .success⟩, .done, .tick 9 9]).2 =
    [.sent ⟨1, 1, [7]⟩, .result ⟨2, 1, .success, [8]⟩, .ub] := by decide +kernel

/-- Without synchronization, the time may pass while a response is being handled: the user gets two results of one server, and then undefined
behaviour. -/
theorem rpc_unsynchronized_two_results :
    (solo [.found, .call 1 1 1 [7] (some 5), .hear ⟨2, 1, [8], .success⟩, .tick 9 9, .done]).2 =
      [.sent ⟨1, 1, [7]⟩, .result ⟨2, 1, .success, [8]⟩, .result ⟨9, 1, .timeout, []⟩, .ub] := by decide +kernel

/-- If a server leaves before it answers, the result is missing forever: nothing but a response or a timeout leads to a result. -/
theorem rpc_departed (c : Case a u ctx b) (hn : n < 2 ^ 31) (hk : knownCount a = n) (hs : Serial (a ++ .call now u ctx data none :: b))
    (ht : ∀ x ∈ a ++ b, timeless x = true) (hl : (answers u b).length < n) :
    (results ctx (solo (a ++ .call now u ctx data none :: b)).2).length < n := by
  rw [rpc_results_timeless c (by omega) hn hk hs ht, List.length_map, List.length_take]
  omega

/-! ## Clients and servers -/

section
variable {i : Nat} {p q : List Act} {S O : List Nat}

/-- A call of client `i`, made when it knows the servers `S` and reaches the servers `O`. When all is done, every server in `O` has answered exactly
once, and the results are the first of the responses, as many as there are servers in `S`. -/
theorem rpc_all_servers_partial {t : Option Int} (hS : S.Nodup) (hSm : ∀ j, j ∈ S ↔ (net p).1.found i j = true) (hO : O.Nodup)
    (hOm : ∀ j, j ∈ O ↔ (net p).1.opened i j = true) (h0 : S ≠ []) (hn : S.length < 2 ^ 31)
    (hu : (uuids (inputs i (net (p ++ .client i (.call now u ctx data t) :: q)).2)).Nodup)
    (hc : (ctxs (inputs i (net (p ++ .client i (.call now u ctx data t) :: q)).2)).Nodup)
    (hh : In.setHandler false ∉ inputs i (net (p ++ .client i (.call now u ctx data t) :: q)).2)
    (hser : Serial (inputs i (net (p ++ .client i (.call now u ctx data t) :: q)).2))
    (hub : Ev.client i .ub ∉ (net (p ++ .client i (.call now u ctx data t) :: q)).2)
    (hsu : ∀ j, Ev.server j .ub ∉ (net (p ++ .client i (.call now u ctx data t) :: q)).2)
    (ht : ∀ T t', (net (p ++ .client i (.call now u ctx data t) :: q)).2 = (net (p ++ [.client i (.call now u ctx data t)])).2 ++ T → t = some t' →
      ¬ Expired t' (inputs i T))
    (hp : ∀ j, Act.part i j ∉ q) (hs : Settled (net (p ++ .client i (.call now u ctx data t) :: q)).1 i u) :
    ((replies i u (net (p ++ .client i (.call now u ctx data t) :: q)).2).map (·.1)).Perm O ∧
    results ctx (outputs i (net (p ++ .client i (.call now u ctx data t) :: q)).2) =
      ((replies i u (net (p ++ .client i (.call now u ctx data t) :: q)).2).take S.length).map (fun r => asResult ctx r.2) ∧
    (results ctx (outputs i (net (p ++ .client i (.call now u ctx data t) :: q)).2)).length = S.length := by
  have hk := known_eq hS hSm
  have hn0 : 0 < S.length := List.length_pos_iff.2 h0
  obtain ⟨T, hT, hin⟩ := call_split i p q now u ctx data t
  have hub' : Out.ub ∉ (solo (inputs i (net (p ++ .client i (.call now u ctx data t) :: q)).2)).2 := by
    rw [← net_outputs]
    intro h
    obtain ⟨e, he, e'⟩ := List.mem_filterMap.1 h
    cases e with
    | client k o =>
      simp only [outputOf] at e'
      split at e'
      · rename_i hk
        injection e' with e'
        rw [hk, e'] at he
        exact hub he
      · cases e'
    | _ => cases e'
  have hb := ub_false_of hub'
  have hperm := replies_opened hn0 hn hk hO hOm (solo_ub_prefix (hin ▸ hb)) hsu hp hu hs
  have hua : u ∉ uuids (inputs i (net p).2) ∧ u ∉ uuids (inputs i T) := by
    rw [hin, uuids_append] at hu
    have huu : uuids (.call now u ctx data t :: inputs i T) = u :: uuids (inputs i T) := rfl
    rw [huu, List.nodup_append, List.nodup_cons] at hu
    exact ⟨fun c => hu.2.2 u c u (by simp) rfl, hu.2.1.1⟩
  have hca : ctx ∉ ctxs (inputs i (net p).2) ∧ ctx ∉ ctxs (inputs i T) := by
    have e : ctxs (inputs i (net p).2 ++ .call now u ctx data t :: inputs i T) = ctxs (inputs i (net p).2) ++ ctx :: ctxs (inputs i T) := by
      unfold ctxs; rw [List.filterMap_append]; rfl
    rw [hin, e, List.nodup_append, List.nodup_cons] at hc
    exact ⟨fun c => hc.2.2 ctx c ctx (by simp) rfl, hc.2.1.1⟩
  have cs : Case (inputs i (net p).2) u ctx (inputs i T) := by
    refine ⟨hua.1, hua.2, hca.1, hca.2, fun h => hh ?_⟩
    rw [hin]
    rcases List.mem_append.1 h with h | h
    · exact List.mem_append_left _ h
    · exact List.mem_append_right _ (List.mem_cons_of_mem _ h)
  have hres := rpc_results_partial cs hn0 hn hk (hin ▸ hser) (fun t' e => ht T t' hT e) (hin ▸ hub')
  rw [← hin, ← net_outputs, answers_after hua.1 hin] at hres
  have hr : results ctx (outputs i (net (p ++ .client i (.call now u ctx data t) :: q)).2) =
      ((replies i u (net (p ++ .client i (.call now u ctx data t) :: q)).2).take S.length).map (fun r => asResult ctx r.2) := by
    rw [hres, ← List.map_take, List.map_map]
    rfl
  refine ⟨hperm, hr, ?_⟩
  rw [hr, List.length_map, List.length_take]
  have := hperm.length_eq
  rw [List.length_map] at this
  have := found_le hS hSm hOm
  omega

/-- If no call has a timeout: a call leads to exactly one result for each server that is known, with the data this server has sent; these are all its
results. -/
theorem rpc_all_servers_timeless (hS : S.Nodup) (hSm : ∀ j, j ∈ S ↔ (net p).1.found i j = true) (hSo : ∀ j, j ∈ S ↔ (net p).1.opened i j = true)
    (h0 : S ≠ []) (hn : S.length < 2 ^ 31)
    (hu : (uuids (inputs i (net (p ++ .client i (.call now u ctx data none) :: q)).2)).Nodup)
    (hc : (ctxs (inputs i (net (p ++ .client i (.call now u ctx data none) :: q)).2)).Nodup)
    (hh : In.setHandler false ∉ inputs i (net (p ++ .client i (.call now u ctx data none) :: q)).2)
    (hser : Serial (inputs i (net (p ++ .client i (.call now u ctx data none) :: q)).2))
    (htl : ∀ x ∈ inputs i (net (p ++ .client i (.call now u ctx data none) :: q)).2, timeless x = true)
    (hsu : ∀ j, Ev.server j .ub ∉ (net (p ++ .client i (.call now u ctx data none) :: q)).2)
    (hp : ∀ j, Act.part i j ∉ q) (hs : Settled (net (p ++ .client i (.call now u ctx data none) :: q)).1 i u) :
    ((replies i u (net (p ++ .client i (.call now u ctx data none) :: q)).2).map (·.1)).Perm S ∧
    results ctx (outputs i (net (p ++ .client i (.call now u ctx data none) :: q)).2) =
      (replies i u (net (p ++ .client i (.call now u ctx data none) :: q)).2).map (fun r => asResult ctx r.2) := by
  have hub : Ev.client i .ub ∉ (net (p ++ .client i (.call now u ctx data none) :: q)).2 := by
    intro h
    refine rpc_no_ub _ hser htl ?_
    rw [← net_outputs]
    exact List.mem_filterMap.2 ⟨_, h, by simp [outputOf]⟩
  obtain ⟨h1, h2, _⟩ := rpc_all_servers_partial hS hSm hS hSo h0 hn hu hc hh hser hub hsu (fun _ _ _ h => by cases h) hp hs
  refine ⟨h1, ?_⟩
  rw [h2, List.take_of_length_le]
  have := h1.length_eq
  rw [List.length_map] at this
  omega

/-- A call without known servers reaches no server. -/
theorem rpc_no_servers_no_messages {t : Option Int} (hk : ∀ j, (net p).1.found i j = false)
    (hu : (uuids (inputs i (net (p ++ .client i (.call now u ctx data t) :: q)).2)).Nodup)
    (hub : Ev.client i .ub ∉ (net p).2) (hsu : ∀ j, Ev.server j .ub ∉ (net (p ++ .client i (.call now u ctx data t) :: q)).2)
    (hp : ∀ j, Act.part i j ∉ q) :
    replies i u (net (p ++ .client i (.call now u ctx data t) :: q)).2 = [] := by
  have hb : (solo (inputs i (net p).2)).1.ub = false := by
    refine ub_false_of ?_
    rw [← net_outputs]
    intro h
    obtain ⟨e, he, e'⟩ := List.mem_filterMap.1 h
    cases e with
    | client k o =>
      simp only [outputOf] at e'
      split at e'
      · rename_i hk
        injection e' with e'
        rw [hk, e'] at he
        exact hub he
      · cases e'
    | _ => cases e'
  exact replies_none (known_eq (S := []) List.nodup_nil fun j => by simp [hk]) hb hsu hp hu

/-- The handler of a server is called with the data of a call that was made, for the client that made it. -/
theorem rpc_called_data {h : List Act} {j : Nat} {d : Data} (hc : Ev.server j (.called i u d) ∈ (net h).2) :
    ∃ now ctx t, Ev.input i (.call now u ctx d t) ∈ (net h).2 := by
  obtain ⟨now, hs⟩ := (net_M h).called j i u d hc
  obtain ⟨ctx, t, hi⟩ := (net_M h).sent i _ hs
  exact ⟨now, ctx, t, hi⟩

/-- It is called at most once for each call. -/
theorem rpc_called_once (h : List Act) (j : Nat) (hu : (uuids (inputs i (net h).2)).Nodup) : calledN i j u (net h).2 ≤ 1 := by
  have h1 := net_cal i j u h
  have h2 := List.nodup_iff_count.1 hu u
  unfold cal at h1
  omega

/-- A response that tells of success comes from the server's handler, which was called for this call, and carries data that the user has submitted as the
result of this call. -/
theorem rpc_success_data {h : List Act} {j : Nat} {m : Response} (hr : Ev.heard i j m ∈ (net h).2) (hs : m.status = .success) :
    (∃ d, Ev.server j (.called i m.uuid d) ∈ (net h).2) ∧ Submits j m.uuid m.data h :=
  have ha := (net_M h).heard i j m hr
  ⟨(net_M h).based j i m ha hs, (net_M h).answer j i m ha hs⟩

/-- Submitting the result of a call sends exactly one response, with this result, to the client that made the call. -/
theorem rpc_submit {h : List Act} {j : Nat} {m : Inner} (hn : (allUuids (net h).2).Nodup) (hub : Ev.server j .ub ∉ (net h).2)
    (hi : (i, m) ∈ ((net h).1.servers j).inner) (he : m.enrolled = true) (hu : u ∈ m.active) (d : Data) :
    (net (h ++ [.submit j now u d])).2 = (net h).2 ++ [.server j (.answer i ⟨now, u, d, .success⟩)] :=
  submit_one hn hub hi he hu now d

/-! Non-vacuity: client 0 and client 1, server 0 and server 1. -/

def exJoin : List Act :=
  [.meet 0 0, .enroll 0 0, .meet 0 1, .enroll 0 1, .meet 1 0, .enroll 1 0, .open 0 0, .find 0 0, .open 0 1, .find 0 1, .open 1 0, .find 1 0,
   .client 1 (.call 1 20 5 [3] none)]

def exRun : List Act :=
  [.take 1 0 2 [], .take 0 0 3 [[4]], .client 0 (.call 4 22 6 [] none), .take 0 1 5 [], .submit 0 6 20 [5], .hear 0 0, .submit 1 7 21 [6], .client 0 .done,
   .hear 0 1, .client 0 .done, .hear 1 0]

example : (∀ j, j ∈ [0, 1] ↔ (net exJoin).1.found 0 j = true) ∧ (∀ j, j ∈ [0, 1] ↔ (net exJoin).1.opened 0 j = true) := by
  have h1 : (net exJoin).1.found = upd2 (upd2 (upd2 (fun _ _ => false) 0 0 true) 0 1 true) 1 0 true := rfl
  have h2 : (net exJoin).1.opened = upd2 (upd2 (upd2 (fun _ _ => false) 0 0 true) 0 1 true) 1 0 true := rfl
  constructor <;> intro j
  · rw [h1]; simp [upd2]; omega
  · rw [h2]; simp [upd2]; omega

example : (uuids (inputs 0 (net (exJoin ++ .client 0 (.call 1 21 7 [8] none) :: exRun)).2)).Nodup ∧
    (ctxs (inputs 0 (net (exJoin ++ .client 0 (.call 1 21 7 [8] none) :: exRun)).2)).Nodup ∧
    In.setHandler false ∉ inputs 0 (net (exJoin ++ .client 0 (.call 1 21 7 [8] none) :: exRun)).2 ∧
    (∀ x ∈ inputs 0 (net (exJoin ++ .client 0 (.call 1 21 7 [8] none) :: exRun)).2, timeless x = true) ∧
    replies 0 21 (net (exJoin ++ .client 0 (.call 1 21 7 [8] none) :: exRun)).2 = [(0, ⟨3, 21, [4], .success⟩), (1, ⟨7, 21, [6], .success⟩)] ∧
    results 7 (outputs 0 (net (exJoin ++ .client 0 (.call 1 21 7 [8] none) :: exRun)).2) = [⟨3, 7, .success, [4]⟩, ⟨7, 7, .success, [6]⟩] := by
  decide +kernel

example : Serial (inputs 0 (net (exJoin ++ .client 0 (.call 1 21 7 [8] none) :: exRun)).2) := by unfold Serial; decide +kernel

/-- Every event, to see that no server has undefined behaviour. -/
example : (net (exJoin ++ .client 0 (.call 1 21 7 [8] none) :: exRun)).2 =
    [.input 0 .found, .input 0 .found, .input 1 .found, .input 1 (.call 1 20 5 [3] none), .client 1 (.sent ⟨1, 20, [3]⟩),
     .input 0 (.call 1 21 7 [8] none), .client 0 (.sent ⟨1, 21, [8]⟩), .server 0 (.called 1 20 [3]), .server 0 (.called 0 21 [8]),
     .server 0 (.answer 0 ⟨3, 21, [4], .success⟩), .input 0 (.call 4 22 6 [] none), .client 0 (.sent ⟨4, 22, []⟩), .server 1 (.called 0 21 [8]),
     .server 0 (.answer 1 ⟨6, 20, [5], .success⟩), .heard 0 0 ⟨3, 21, [4], .success⟩, .input 0 (.hear ⟨3, 21, [4], .success⟩),
     .client 0 (.result ⟨3, 7, .success, [4]⟩), .server 1 (.answer 0 ⟨7, 21, [6], .success⟩), .input 0 .done,
     .heard 0 1 ⟨7, 21, [6], .success⟩, .input 0 (.hear ⟨7, 21, [6], .success⟩), .client 0 (.result ⟨7, 7, .success, [6]⟩), .input 0 .done,
     .heard 1 0 ⟨6, 20, [5], .success⟩, .input 1 (.hear ⟨6, 20, [5], .success⟩), .client 1 (.result ⟨6, 5, .success, [5]⟩)] := by
  decide +kernel

example : Settled (net (exJoin ++ .client 0 (.call 1 21 7 [8] none) :: exRun)).1 0 21 := by
  refine ⟨fun j m hm => ?_, fun j m hm => ?_, fun j => ?_⟩
  · match j with
    | 0 => revert m; decide +kernel
    | 1 => revert m; decide +kernel
    | j + 2 => cases hm
  · match j with
    | 0 => revert m; decide +kernel
    | 1 => revert m; decide +kernel
    | j + 2 => cases hm
  · match j with
    | 0 => decide +kernel
    | 1 => decide +kernel
    | j + 2 => rfl

end

/-! ## What servers do wrong -/

/-- A call that arrives before the internal server is put into the map of its server: the user's `SubmitResult` throws, and no response is sent. -/
theorem rpc_submit_before_enrolled :
    (net [.meet 0 0, .open 0 0, .find 0 0, .client 0 (.call 1 1 1 [7] none), .take 0 0 2 [[8]], .enroll 0 0]).2 =
      [.input 0 .found, .input 0 (.call 1 1 1 [7] none), .client 0 (.sent ⟨1, 1, [7]⟩), .server 0 (.called 0 1 [7]), .server 0 .stateError] := by
  decide +kernel

/-- A handler that is set just then does not reach the internal server: the client gets an error although the server has a handler. -/
theorem rpc_handler_missed :
    (net [.setHandler 0 false, .meet 0 0, .setHandler 0 true, .enroll 0 0, .open 0 0, .find 0 0, .client 0 (.call 1 1 1 [7] none), .take 0 0 2 [[8]], .hear 0 0]).2 =
      [.input 0 .found, .input 0 (.call 1 1 1 [7] none), .client 0 (.sent ⟨1, 1, [7]⟩), .server 0 (.answer 0 ⟨2, 1, [], .internalError⟩),
       .heard 0 0 ⟨2, 1, [], .internalError⟩, .input 0 (.hear ⟨2, 1, [], .internalError⟩), .client 0 (.result ⟨2, 1, .internalServerError, []⟩)] := by
  decide +kernel

/-- Submitting a second result for a call, after its handler has returned, is undefined behaviour. -/
theorem rpc_submit_twice :
    (net [.meet 0 0, .enroll 0 0, .open 0 0, .find 0 0, .client 0 (.call 1 1 1 [7] none), .take 0 0 2 [], .submit 0 3 1 [8], .submit 0 4 1 [9]]).2.getLast? =
      some (.server 0 .ub) := by
  decide +kernel

end SilKit.Props
