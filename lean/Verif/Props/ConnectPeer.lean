import Verif.Lemmas.ConnectPeer
/-!
# Connecting to a peer (C40)

`run size attempts h` is connecting with `size` URIs and this number of attempts, where `h` happens, and all that is done. `Async h`: no connector reports
its failure before the call that starts it returns.
-/
namespace SilKit.Props
open SilKit.ConnectPeer SilKit.ConnectPeer.Spec

variable {n m : Nat} {h : List In}

/-- The URIs are tried in their order, again and again, each as often as there are attempts, and not more often. -/
theorem connect_tries_in_order_partial (ha : Async h) : tries (run n m h).2 <+: plan n m := inv_prefix (run_inv n m h ha)

/-- The listener is called at most once, and nothing happens afterwards. -/
theorem connect_ends_once_partial (ha : Async h) {a b : List Out} {o : Out} (ho : isEnd o = true) (e : (run n m h).2 = a ++ o :: b) : ends a = [] ∧ b = [] := by
  have none : ends (run n m h).2 ≠ [] := by
    rw [e, ends_append]
    simp [ends, ho]
  have fin : ∀ t' o', (run n m h).2 = t' ++ [o'] → ends t' = [] → ends a = [] ∧ b = [] := by
    intro t' o' e' he
    rw [e'] at e
    rcases List.eq_nil_or_concat b with rfl | ⟨b', x, rfl⟩
    · have := (List.append_inj' e rfl).1
      exact ⟨by rw [← this]; exact he, rfl⟩
    · exfalso
      have e2 : t' ++ [o'] = (a ++ o :: b') ++ [x] := by rw [e]; simp
      have := (List.append_inj' e2 rfl).1
      rw [this, ends_append] at he
      simp [ends, ho] at he
  cases (run_inv n m h ha).phase with
  | work t c e' => exact absurd e' none
  | wait t c e' l u => exact absurd e' none
  | connected t c u =>
    obtain ⟨t', i, h1, h2⟩ := u
    exact fin (t' ++ [.tried i]) .success (by simp [h1]) (by rw [ends_append, h2]; rfl)
  | failed t c u p =>
    obtain ⟨t', h1, h2⟩ := u
    exact fin t' .failure h1 h2

/-- Success is reported directly after the URI that worked was tried. -/
theorem connect_success_partial (ha : Async h) (hs : Out.success ∈ (run n m h).2) : ∃ t i, (run n m h).2 = t ++ [.tried i, .success] := by
  have hm : Out.success ∈ ends (run n m h).2 := by simp [ends, hs, isEnd]
  cases (run_inv n m h ha).phase with
  | work t c e => rw [e] at hm; cases hm
  | wait t c e l u => rw [e] at hm; cases hm
  | connected t c u =>
    obtain ⟨t', i, h1, _⟩ := u
    exact ⟨t', i, h1⟩
  | failed t c u p =>
    obtain ⟨t', h1, h2⟩ := u
    rw [h1, ends_append, h2] at hm
    simp [ends, isEnd] at hm

/-- Failure is reported only after all URIs were tried, as often as there are attempts. -/
theorem connect_failure_partial (ha : Async h) (hs : Out.failure ∈ (run n m h).2) : tries (run n m h).2 = plan n m := by
  have i := run_inv n m h ha
  have hm : Out.failure ∈ ends (run n m h).2 := by simp [ends, hs, isEnd]
  cases i.phase with
  | work t c e => rw [e] at hm; cases hm
  | wait t c e l u => rw [e] at hm; cases hm
  | connected t c u =>
    obtain ⟨t', j, h1, h2⟩ := u
    rw [h1, ends_append, h2] at hm
    simp [ends, isEnd] at hm
  | failed t c u p =>
    rw [i.tries]
    rcases p with p | p
    · rw [p, i.done p, Nat.sub_zero, soFar_plan]
    · rw [i.size] at p
      subst p
      have : (run 0 m h).1.index = 0 := Nat.le_zero.1 i.index
      rw [this, ← soFar_plan, soFar_empty, soFar_empty]

/-- When nothing is left to be done, the listener was called. -/
theorem connect_reports_partial (ha : Async h) (hi : Idle (run n m h).1) : (ends (run n m h).2).length = 1 := by
  cases (run_inv n m h ha).phase with
  | work t c e => rw [hi.1] at t; cases t
  | wait t c e l u => rw [hi.2] at c; cases c
  | connected t c u =>
    obtain ⟨t', i, h1, h2⟩ := u
    rw [h1, ends_append, h2]; rfl
  | failed t c u p =>
    obtain ⟨t', h1, h2⟩ := u
    rw [h1, ends_append, h2]; rfl

/-- There is an end to it. -/
theorem connect_terminates_partial (ha : Async h) (hb : Busy n m h) : h.length ≤ max m 1 * (2 * n + 2) + 2 * n + 1 := by
  have := busy_bound n m h ha hb
  omega

/-- As long as it is not idle, something can happen. -/
theorem connect_goes_on_partial (ha : Async h) (hi : ¬ Idle (run n m h).1) : Possible (run n m h).1 (.go .none) ∨ Possible (run n m h).1 .failed := by
  cases (run_inv n m h ha).phase with
  | work t c e => left; simp [Possible, t]
  | wait t c e l u => right; exact ⟨t, c⟩
  | connected t c u => exact absurd ⟨t, c⟩ hi
  | failed t c u p => exact absurd ⟨t, c⟩ hi

/-- A connector that fails before `AsyncConnect` returns: the failure is reported twice. -/
theorem connect_failure_at_once_is_reported_twice : ∃ h, (run 1 1 h).2 = [.tried 0, .failure, .failure] ∧ Idle (run 1 1 h).1 :=
  ⟨[.go .failsAtOnce, .go .none, .go .none, .go .none, .go .none], by unfold Idle; decide +kernel⟩

/-! ## The URIs -/

section
open SilKit.Uri

/-- The URIs that are tried: domain sockets, IPv4 addresses, IPv6 addresses, other hosts, and all other URIs, each in the order in which they were given. -/
theorem connect_order (resolve : Str → Option (List Str)) (acceptors : List Str) :
    let us := acceptors.flatMap (expand resolve)
    updateUris resolve acceptors =
      us.filter (fun u => u.kind == .local) ++
      us.filter (fun u => u.kind == .tcp && isIp4 u.host) ++
      us.filter (fun u => u.kind == .tcp && isIp6 u.host) ++
      us.filter (fun u => u.kind == .tcp && !isIp4 u.host && !isIp6 u.host) ++
      us.filter (fun u => u.kind != .local && u.kind != .tcp) := by
  intro us
  have no : ∀ a, ¬ (isIp4 a = true ∧ isIp6 a = true) := by
    intro a; simp only [isIp4, isIp6, Bool.and_eq_true]; rintro ⟨⟨h1, _⟩, h3, _⟩; rw [h1] at h3; cases h3
  rw [update_eq]
  simp only [List.flatMap_cons, List.flatMap_nil, List.append_nil, List.append_assoc]
  have e : ∀ (p : Nat) (q : Uri → Bool), (∀ u, (penalty u == p) = q u) → us.filter (fun u => penalty u == p) = us.filter q := by
    intro p q hq
    congr 1
    funext u; exact hq u
  rw [e 100 (fun u => u.kind == .local), e 200 (fun u => u.kind == .tcp && isIp4 u.host), e 300 (fun u => u.kind == .tcp && isIp6 u.host),
    e 400 (fun u => u.kind == .tcp && !isIp4 u.host && !isIp6 u.host), e 500 (fun u => u.kind != .local && u.kind != .tcp)]
  all_goals
    intro u
    have := no u.host
    unfold penalty
    cases hk : u.kind <;> simp
    all_goals cases h4 : isIp4 u.host <;> cases h6 : isIp6 u.host <;> simp_all

/-- A URI that is not `tcp` is used as it is. -/
theorem connect_other_uri {resolve : Str → Option (List Str)} {s : Str} {u : Uri} (hp : parse s = some u) (hk : u.kind ≠ .tcp) : expand resolve s = [u] := by
  unfold expand
  rw [hp]
  simp only
  rw [if_neg hk]

/-- For a `tcp` URI, the host is replaced by the addresses of it; the port stays. -/
theorem connect_tcp_uri {resolve : Str → Option (List Str)} {s : Str} {u : Uri} (hp : parse s = some u) (hk : u.kind = .tcp) {as : List Str} (hr : resolve u.host = some as)
    (ha : ∀ a ∈ as, a ≠ [] ∧ '/' ∉ a) :
    (expand resolve s).map (fun v => (v.kind, v.host, v.portOf)) = as.map fun a => (.tcp, bracket a, u.portOf) := by
  have hport : u.portOf < 65536 := by
    obtain ⟨rest, _, _, ⟨_, auth, slash, _, _, _, h4⟩, _⟩ := (parse_iff (by rw [hk]; decide)).1 hp
    unfold Uri.portOf
    rcases h4 with ⟨_, _, h4⟩ | ⟨_, p, _, _, ht, h4⟩
    · rw [h4]; simp only; split <;> decide
    · rw [h4]; exact portText_lt ht
  unfold expand
  rw [hp]
  simp only
  rw [if_pos hk, hr]
  simp only
  clear hr
  induction as with
  | nil => rfl
  | cons a as ih =>
    obtain ⟨h1, h2⟩ := ha a (by simp)
    have hb : bracket a ≠ [] ∧ '/' ∉ bracket a := by
      unfold bracket
      split
      · split <;> split <;> simp [h1, h2]
      · exact ⟨h1, h2⟩
    have hmk : ∃ v, makeTcp (bracket a) u.portOf = some v := by
      have g : Spec.Grammar (bracket a ++ ':' :: print u.portOf ++ []) (bracket a) (some u.portOf) [] :=
        (make_grammar hport (.inl ⟨rfl, rfl⟩)).2 ⟨hb.1, hb.2, rfl, rfl, rfl⟩
      refine ⟨⟨.tcp, "tcp".toList, bracket a, some u.portOf, [], _⟩, (parse_iff (by simp)).2 ⟨bracket a ++ ':' :: print u.portOf ++ [], ?_, rfl, g, rfl⟩⟩
      have := firstSep_tcp (bracket a ++ ':' :: print u.portOf ++ [])
      simpa [List.append_assoc] using this
    obtain ⟨v, hv⟩ := hmk
    obtain ⟨_, _, v1, v2, v3⟩ := makeTcp_some hport hv
    simp only [tcpUris, hv, List.map_cons, v1, v2, v3]
    rw [ih fun b hb => ha b (by simp [hb])]

/-- What is used has the port of a URI that was given. -/
theorem connect_uris_given {resolve : Str → Option (List Str)} {acceptors : List Str} {v : Uri} (hv : v ∈ updateUris resolve acceptors) :
    ∃ s ∈ acceptors, ∃ u, parse s = some u ∧ (v = u ∨ (u.kind = .tcp ∧ v.kind = .tcp ∧ v.portOf = u.portOf ∧ ∃ as, resolve u.host = some as ∧ ∃ a ∈ as, v.host = bracket a)) := by
  unfold updateUris at hv
  rw [List.mem_mergeSort, List.mem_flatMap] at hv
  obtain ⟨s, hs, hv⟩ := hv
  refine ⟨s, hs, ?_⟩
  unfold expand at hv
  cases hp : parse s with
  | none => rw [hp] at hv; cases hv
  | some u =>
    rw [hp] at hv
    simp only at hv
    refine ⟨u, rfl, ?_⟩
    split at hv
    · rename_i hk
      right
      have hport : u.portOf < 65536 := by
        obtain ⟨rest, _, _, ⟨_, auth, slash, _, _, _, h4⟩, _⟩ := (parse_iff (by rw [hk]; decide)).1 hp
        unfold Uri.portOf
        rcases h4 with ⟨_, _, h4⟩ | ⟨_, p, _, _, ht, h4⟩
        · rw [h4]; simp only; split <;> decide
        · rw [h4]; exact portText_lt ht
      cases hr : resolve u.host with
      | none => rw [hr] at hv; cases hv
      | some as =>
        rw [hr] at hv
        simp only at hv
        have : ∃ a ∈ as, makeTcp (bracket a) u.portOf = some v := by
          clear hr
          induction as with
          | nil => cases hv
          | cons a as ih =>
            simp only [tcpUris] at hv
            cases hm : makeTcp (bracket a) u.portOf with
            | none => rw [hm] at hv; cases hv
            | some w =>
              rw [hm] at hv
              rcases List.mem_cons.1 hv with rfl | hv
              · exact ⟨a, by simp, hm⟩
              · obtain ⟨b, hb, e⟩ := ih hv
                exact ⟨b, by simp [hb], e⟩
        obtain ⟨a, ha, hm⟩ := this
        obtain ⟨_, _, v1, v2, v3⟩ := makeTcp_some hport hm
        exact ⟨hk, v1, v3, as, rfl, a, ha, v2⟩
    · left; simpa using hv

end

/-! ## The hypotheses are met -/

example : Async [.go .none, .go .pending, .failed, .go .none, .go .pending, .connected] ∧ Busy 2 2 [.go .none, .go .pending, .failed, .go .none, .go .pending, .connected] ∧
    (run 2 2 [.go .none, .go .pending, .failed, .go .none, .go .pending, .connected]).2 = [.tried 0, .tried 1, .tried 0, .success] := by
  refine ⟨by unfold Async; decide, fun a x b e => ?_, by decide +kernel⟩
  rcases a with _ | ⟨_, _ | ⟨_, _ | ⟨_, _ | ⟨_, _ | ⟨_, _ | ⟨_, a⟩⟩⟩⟩⟩⟩ <;> simp at e <;>
    first
      | (obtain ⟨rfl, rfl, rfl, rfl, rfl, rfl, _⟩ := e; unfold Possible; decide +kernel)
      | (obtain ⟨rfl, rfl, rfl, rfl, rfl, _⟩ := e; unfold Possible; decide +kernel)
      | (obtain ⟨rfl, rfl, rfl, rfl, _⟩ := e; unfold Possible; decide +kernel)
      | (obtain ⟨rfl, rfl, rfl, _⟩ := e; unfold Possible; decide +kernel)
      | (obtain ⟨rfl, rfl, _⟩ := e; unfold Possible; decide +kernel)
      | (obtain ⟨rfl, _⟩ := e; unfold Possible; decide +kernel)
      | (cases a <;> simp at e)

example : (run 2 2 [.go .none, .go .none, .go .none, .go .none, .go .none, .go .none, .go .none]).2 = [.tried 0, .tried 1, .tried 0, .tried 1, .failure] := by
  decide +kernel

example : (updateUris (fun a => if a = "h".toList then some ["::1".toList, "1.2.3.4".toList] else none)
    ["tcp://h:7".toList, "local:///x".toList, "tcp://nowhere:1".toList]).map (fun u => (u.host, u.path, u.portOf)) =
    [([], "/x".toList, 0), ("1.2.3.4".toList, [], 7), ("[::1]".toList, [], 7)] := by
  rw [connect_order]; decide +kernel

end SilKit.Props
