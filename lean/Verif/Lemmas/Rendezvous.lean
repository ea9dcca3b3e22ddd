import Verif.Spec.Rendezvous
import Verif.Props.Uri
import Verif.Props.ConnectPeer
namespace SilKit.Rendezvous
open SilKit.Uri SilKit.Rendezvous.Spec

/-- The text of the URI that a registry returns. -/
def canon (host : Str) (port : Nat) : Str := "silkit://".toList ++ host ++ ":".toList ++ print port

theorem endpoint_inj {env : Env} (hn : NoCollisions env) {a b c d : Str} (h : env.endpoint a b = env.endpoint c d) : a ++ b = c ++ d := by
  unfold Env.endpoint at h
  have h := List.append_cancel_right h
  rw [List.append_assoc, List.append_assoc, List.append_assoc, List.append_assoc] at h
  have h := hn _ _ (List.append_cancel_left (List.append_cancel_left h))
  exact List.append_cancel_left h

theorem parse_silkit (x : Str) : parse ("silkit://".toList ++ x) =
    match simulation (x.dropWhile (· != '/')) with
    | none => none
    | some path =>
      match authority (x.takeWhile (· != '/')) with
      | none => none
      | some (host, port) => some { kind := .silkit, scheme := "silkit".toList, host := host, port := port, path := path, encoded := "silkit://".toList ++ x } := by
  rfl

theorem no_slash_tail {host : Str} {p : Nat} (hs : '/' ∉ host) : ∀ ch ∈ host ++ ":".toList ++ print p, (ch != '/') = true := by
  intro ch hc
  have : ch ≠ '/' := by
    rintro rfl
    rcases List.mem_append.1 hc with h | h
    · rcases List.mem_append.1 h with h | h
      · exact hs h
      · revert h; decide
    · have := print_digit h
      revert this; decide
  simpa using this

theorem make_eq (host : Str) (p : Nat) : make host p = parse (canon host p) := rfl

theorem canon_parts {host : Str} {p : Nat} (hh : host ≠ []) (hs : '/' ∉ host) (hp : p < 65536) :
    ∃ u, parse (canon host p) = some u ∧ u.kind = .silkit ∧ u.host = host ∧ u.portOf = p ∧ u.encoded = canon host p := by
  obtain ⟨⟨u, h1, h2, h3, h4, _⟩, _⟩ := Props.uri_make_unnamed hh hs hp
  refine ⟨u, h1, h2, h3, h4, ?_⟩
  exact ((parse_iff (by rw [h2]; decide)).1 h1).choose_spec.2.2.2

theorem canon_authority {host : Str} {p : Nat} (hh : host ≠ []) (hs : '/' ∉ host) (hp : p < 65536) :
    authority (host ++ ":".toList ++ print p) = some (host, some p) :=
  authority_iff.2 ⟨hh, .inr ⟨print p, p, by simp, fun h => by have := print_digit h; revert this; decide, print_text hp, rfl⟩⟩

/-- A URI that has the same socket as one that a registry returned has the same host and port. -/
theorem same_socket {uri cwd cwd' host : Str} {p : Nat} {u : Uri} (hu : parse uri = some u) (hh : host ≠ []) (hs : '/' ∉ host) (hp : p < 65536)
    (hc : Absolute cwd) (hc' : Absolute cwd') (h : uri ++ cwd = canon host p ++ cwd') : u.host = host ∧ u.portOf = p := by
  have same : uri = canon host p → u.host = host ∧ u.portOf = p := by
    rintro rfl
    obtain ⟨v, h1, _, h2, h3, _⟩ := canon_parts hh hs hp
    rw [hu] at h1
    cases h1
    exact ⟨h2, h3⟩
  rcases List.append_eq_append_iff.1 h with ⟨s, e1, e2⟩ | ⟨s, e1, e2⟩
  · cases s with
    | nil => exact same (by rw [List.append_nil] at e1; exact e1.symm)
    | cons x s =>
      exfalso
      have : x = '/' := by unfold Absolute at hc; rw [e2] at hc; exact Option.some.inj hc
      subst this
      have hsc : ∃ a b, uri = a ++ "://".toList ++ b := by
        unfold parse at hu
        cases hsp : splitScheme uri with
        | none => rw [hsp] at hu; cases hu
        | some q => exact ⟨q.1, q.2, split_sound hsp⟩
      obtain ⟨a, b, rfl⟩ := hsc
      have hcount := congrArg (List.count '/') e1
      have h0 : (host ++ ":".toList ++ print p).count '/' = 0 := List.count_eq_zero.2 (fun hm => by have := no_slash_tail hs _ hm; simp at this)
      have e : canon host p = "silkit://".toList ++ (host ++ ":".toList ++ print p) := by unfold canon; simp
      rw [e, List.count_append, h0] at hcount
      simp only [List.count_append] at hcount
      have h1 : "silkit://".toList.count '/' = 2 := by decide
      have h2 : "://".toList.count '/' = 2 := by decide
      rw [h1, h2, List.count_cons_self] at hcount
      omega
  · cases s with
    | nil => exact same (by rw [List.append_nil] at e1; exact e1)
    | cons x s =>
      have : x = '/' := by unfold Absolute at hc'; rw [e2] at hc'; exact Option.some.inj hc'
      subst this
      have e : uri = "silkit://".toList ++ ((host ++ ":".toList ++ print p) ++ '/' :: s) := by rw [e1]; unfold canon; simp
      obtain ⟨c1, c2⟩ := takeWhile_cut (p := (· != '/')) (no_slash_tail (p := p) hs) (b := '/' :: s) (by intro ch hc; cases hc; rfl)
      rw [e, parse_silkit, c1, c2, canon_authority hh hs hp] at hu
      cases hsim : simulation ('/' :: s) with
      | none => rw [hsim] at hu; cases hu
      | some path => rw [hsim] at hu; cases hu; exact ⟨rfl, rfl⟩

theorem parse_encoded {s : Str} {u : Uri} (h : parse s = some u) : u.encoded = s := by
  unfold parse at h
  split at h
  · cases h
  · split at h
    · cases h; rfl
    · split at h
      · cases h
      · split at h
        · cases h
        · cases h; rfl

theorem local_host {s : Str} {u : Uri} (h : parse s = some u) (hk : u.kind = .local) : u.host = [] := by
  unfold parse at h
  split at h
  · cases h
  · split at h
    · cases h; rfl
    · rename_i hne
      split at h
      · cases h
      · split at h
        · cases h
        · cases h; exact absurd hk hne

theorem make_empty (p : Nat) : make [] p = none := by
  rw [make_eq]
  have e : canon [] p = "silkit://".toList ++ ([] ++ ":".toList ++ print p) := by unfold canon; simp
  rw [e, parse_silkit]
  cases h1 : simulation (([] ++ ":".toList ++ print p).dropWhile (· != '/')) with
  | none => rfl
  | some path =>
    dsimp only
    cases h2 : authority (([] ++ ":".toList ++ print p).takeWhile (· != '/')) with
    | none => rfl
    | some q =>
      exfalso
      obtain ⟨c1, c2, c3⟩ := cut_takeWhile (· != '/') ([] ++ ":".toList ++ print p)
      obtain ⟨hne, h | ⟨text, k, h, _⟩⟩ := authority_iff.1 (show _ = some (q.1, q.2) from h2)
      · have hm : ':' ∈ ([] ++ ":".toList ++ print p).takeWhile (· != '/') := by
          show ':' ∈ ((':' :: print p).takeWhile (· != '/'))
          rw [List.takeWhile_cons_of_pos (by decide)]
          exact List.mem_cons_self
        exact h.1 hm
      · have : ([] ++ ":".toList ++ print p).takeWhile (· != '/') = ':' :: (print p).takeWhile (· != '/') := by
          show ((':' :: print p).takeWhile (· != '/')) = _
          rw [List.takeWhile_cons_of_pos (by decide)]
        rw [this] at h
        cases hq : q.1 with
        | nil => exact hne hq
        | cons x xs =>
          rw [hq, List.cons_append] at h
          obtain ⟨hx, hr⟩ := List.cons.inj h
          have hm : ':' ∈ (print p).takeWhile (· != '/') := by rw [hr]; simp
          have := print_digit ((List.takeWhile_sublist _).subset hm)
          revert this; decide

/-! ## Addresses -/

theorem isIp4_of {a : Str} (h1 : '.' ∈ a) (h2 : ':' ∉ a) : ConnectPeer.isIp4 a = true ∧ ConnectPeer.isIp6 a = false := by
  unfold ConnectPeer.isIp4 ConnectPeer.isIp6
  simp [h1, h2]

theorem isIp6_of {a : Str} (h1 : ':' ∈ a) (h2 : ∀ c ∈ a, c.isDigit = true ∨ c = ':') : ConnectPeer.isIp4 a = false ∧ ConnectPeer.isIp6 a = true := by
  unfold ConnectPeer.isIp4 ConnectPeer.isIp6
  have : '.' ∉ a := fun h => by rcases h2 _ h with h | h <;> revert h <;> decide
  simp [h1, this]

theorem clean_v4 {a : Str} (h1 : '.' ∈ a) : clean a = a := by
  unfold clean bracketed
  split
  · rename_i rest
    split
    · rename_i hc
      exfalso
      obtain ⟨hl, _, hd⟩ := hc
      have hm : '.' ∈ rest := by
        rcases List.mem_cons.1 h1 with h | h
        · exact absurd h (by decide)
        · exact h
      obtain ⟨l, rfl⟩ := List.getLast?_eq_some_iff.1 hl
      rw [List.dropLast_concat] at hd
      rcases List.mem_append.1 hm with h | h
      · have := List.all_eq_true.1 hd _ h
        revert this; decide
      · revert h; decide
    · rfl
  · rfl

theorem bracket_v4 {a : Str} (h1 : '.' ∈ a) (h2 : ':' ∉ a) : ConnectPeer.bracket a = a := by
  unfold ConnectPeer.bracket
  rw [(isIp4_of h1 h2).2]
  rfl

theorem bracket_v6 {a : Str} (h1 : ':' ∈ a) (h2 : ∀ c ∈ a, c.isDigit = true ∨ c = ':') : ConnectPeer.bracket a = '[' :: (a ++ [']']) := by
  have hh : a.head? ≠ some '[' := fun h => by
    rcases h2 _ (List.mem_of_mem_head? h) with h | h <;> revert h <;> decide
  have hl : ('[' :: a).getLast? ≠ some ']' := fun h => by
    rcases List.mem_cons.1 (List.mem_of_getLast? h) with h | h
    · revert h; decide
    · rcases h2 _ h with h | h <;> revert h <;> decide
  unfold ConnectPeer.bracket
  rw [(isIp6_of h1 h2).2, if_pos rfl, if_neg hh, if_neg hl]
  rfl

theorem clean_v6 {a : Str} (h1 : ':' ∈ a) (h2 : ∀ c ∈ a, c.isDigit = true ∨ c = ':') : clean ('[' :: (a ++ [']'])) = a := by
  unfold clean bracketed
  have hne : a ≠ [] := List.ne_nil_of_mem h1
  simp only [List.getLast?_append, List.getLast?_singleton, Option.some_or, List.dropLast_concat, ne_eq, hne, not_false_eq_true, true_and]
  rw [if_pos]
  · rfl
  · rw [List.all_eq_true]
    intro c hc
    rw [isDigit_eq]
    simpa using h2 c hc

theorem ip6_bracket {a : Str} (h1 : ':' ∈ a) (h2 : ∀ c ∈ a, c.isDigit = true ∨ c = ':') :
    ConnectPeer.isIp4 ('[' :: (a ++ [']'])) = false ∧ ConnectPeer.isIp6 ('[' :: (a ++ [']'])) = true := by
  unfold ConnectPeer.isIp4 ConnectPeer.isIp6
  have : '.' ∉ a := fun h => by rcases h2 _ h with h | h <;> revert h <;> decide
  simp [h1, this]

def Plainly (env : Env) (a : Str) : Prop := ∀ ad, env.address a = some ad →
    (ad.v4 = true ∧ '.' ∈ a ∧ ':' ∉ a ∨ ad.v4 = false ∧ ':' ∈ a ∧ ∀ c ∈ a, c.isDigit = true ∨ c = ':')

/-- The candidates of a host, and the addresses that a registry has for it. -/
theorem candidates_facts (env : Env) (port : Nat) : ∀ (names : List Str) (ads : List Addr) (us : List Uri), (∀ a ∈ names, Plainly env a) →
    names.mapM env.address = some ads → us.map (fun v => (v.kind, v.host, v.portOf)) = names.map (fun a => (Kind.tcp, ConnectPeer.bracket a, port)) →
    (∀ a, ads.find? (·.v4) = some a → ∃ v rest, us.filter (fun u => u.kind == .tcp && ConnectPeer.isIp4 u.host) = v :: rest ∧ v.kind = .tcp ∧ v.portOf = port ∧ env.address (clean v.host) = some a) ∧
    (ads.find? (·.v4) = none → us.filter (fun u => u.kind == .tcp && ConnectPeer.isIp4 u.host) = [] ∧
      ∀ a, ads.head? = some a → ∃ v rest, us.filter (fun u => u.kind == .tcp && ConnectPeer.isIp6 u.host) = v :: rest ∧ v.kind = .tcp ∧ v.portOf = port ∧ env.address (clean v.host) = some a) := by
  intro names
  induction names with
  | nil =>
    intro ads us _ h1 h2
    have : ads = [] := by simpa using h1.symm
    subst this
    have : us = [] := by simpa using h2
    subst this
    refine ⟨?_, ?_⟩
    · intro a h; cases h
    · intro _; exact ⟨rfl, fun a h => by cases h⟩
  | cons n names ih =>
    intro ads us hp h1 h2
    cases us with
    | nil => cases h2
    | cons v us =>
      rw [List.map_cons, List.map_cons] at h2
      obtain ⟨hv, h2⟩ := List.cons.inj h2
      obtain ⟨hk, hh, hpo⟩ : v.kind = .tcp ∧ v.host = ConnectPeer.bracket n ∧ v.portOf = port := by simpa using hv
      rw [List.mapM_cons] at h1
      cases ha : env.address n with
      | none => rw [ha] at h1; cases h1
      | some ad =>
        cases hm : names.mapM env.address with
        | none => rw [ha, hm] at h1; cases h1
        | some ads' =>
          rw [ha, hm] at h1
          cases h1
          have ih := ih ads' us (fun a ha => hp a (List.mem_cons_of_mem _ ha)) hm h2
          have hpl := hp n List.mem_cons_self ad ha
          have hkb : (v.kind == Kind.tcp) = true := by rw [hk]; rfl
          rcases hpl with ⟨h4, hd, hcol⟩ | ⟨h4, hcol, hdig⟩
          · have hb := bracket_v4 hd hcol
            have hi := isIp4_of hd hcol
            refine ⟨?_, ?_⟩
            · intro a hf
              rw [List.find?_cons, h4] at hf
              cases hf
              refine ⟨v, _, List.filter_cons_of_pos (by rw [hkb, hh, hb, hi.1]; rfl), hk, hpo, ?_⟩
              rw [hh, hb, clean_v4 hd, ha]
            · intro hf
              rw [List.find?_cons, h4] at hf
              cases hf
          · have hb := bracket_v6 hcol hdig
            have hi := ip6_bracket hcol hdig
            have hneg : ¬ ((v.kind == Kind.tcp && ConnectPeer.isIp4 v.host) = true) := by rw [hh, hb, hi.1]; simp
            refine ⟨?_, ?_⟩
            · intro a hf
              rw [List.find?_cons, h4] at hf
              rw [List.filter_cons_of_neg (p := fun u : Uri => u.kind == .tcp && ConnectPeer.isIp4 u.host) hneg]
              exact ih.1 a hf
            · intro hf
              rw [List.find?_cons, h4] at hf
              rw [List.filter_cons_of_neg (p := fun u : Uri => u.kind == .tcp && ConnectPeer.isIp4 u.host) hneg]
              refine ⟨(ih.2 hf).1, ?_⟩
              intro a hh'
              cases hh'
              refine ⟨v, _, List.filter_cons_of_pos (by rw [hkb, hh, hb, hi.2]; rfl), hk, hpo, ?_⟩
              rw [hh, hb, clean_v6 hcol hdig, ha]

/-! ## TCP -/

theorem serves_self (a : Addr) : serves a a = true := by unfold serves; simp

theorem conflict_symm (x y : Addr × Nat) : conflict x y = conflict y x := by
  unfold conflict
  rw [Bool.eq_iff_iff]
  simp only [Bool.and_eq_true, Bool.or_eq_true, decide_eq_true_eq]
  constructor
  · rintro ⟨h, h1 | h1⟩ <;> exact ⟨h.symm, by simp [h1]⟩
  · rintro ⟨h, h1 | h1⟩ <;> exact ⟨h.symm, by simp [h1]⟩

/-- No two acceptors are in conflict. -/
def NoConflict (w : World) : Prop := ∀ e1 ∈ w.tcp, ∀ e2 ∈ w.tcp, conflict e1.2 e2.2 = true → e1 = e2

theorem tcp_find {w : World} (hn : NoConflict w) {r : Nat} {a : Addr} {p : Nat} (hm : (r, a, p) ∈ w.tcp) :
    (w.tcp.find? (fun e => serves e.2.1 a && e.2.2 = p)).map (·.1) = some r := by
  cases hf : w.tcp.find? (fun e => serves e.2.1 a && e.2.2 = p) with
  | none => exact absurd (List.find?_eq_none.1 hf _ hm) (by simp [serves_self])
  | some e =>
    have hs := List.find?_some hf
    have hme := List.mem_of_find?_eq_some hf
    simp only [Bool.and_eq_true, decide_eq_true_eq] at hs
    have := hn e hme _ hm (by unfold conflict; simp [hs.1, hs.2])
    rw [this]
    rfl

theorem tcp_parse {host : Str} {p : Nat} {t : Uri} (h : makeTcp host p = some t) : parse t.encoded = some t := by
  have h' : parse ("tcp://".toList ++ host ++ ":".toList ++ print p) = some t := h
  rw [parse_encoded h']
  exact h'

/-- A participant reaches by TCP the registry that listens at the host and port of its URI. -/
theorem reach_tcp {env : Env} (hr : Readable env) {w : World} (hn : NoConflict w) {host : Str} {p : Nat} {a : Addr} {r : Nat} {t : Uri} (hp : p < 65536)
    (hh : host ≠ []) (hl : env.listenAddress host = some a) (hm : (r, a, p) ∈ w.tcp) (ht : makeTcp host p = some t) (d : Bool) :
    (ConnectPeer.updateUris env.resolve [t.encoded]).findSome? (reach env w d) = some r := by
  obtain ⟨_, _, k1, k2, k3⟩ := ConnectPeer.makeTcp_some hp ht
  unfold Env.listenAddress at hl
  rw [if_neg hh] at hl
  obtain ⟨names, hnames, hl⟩ := Option.bind_eq_some_iff.1 hl
  obtain ⟨ads, hads, hb⟩ := Option.bind_eq_some_iff.1 hl
  have hus := Props.connect_tcp_uri (tcp_parse ht) k1 (k2.symm ▸ hnames) (fun b hb => ⟨(hr host names hnames b hb).1, (hr host names hnames b hb).2.1⟩)
  rw [k3] at hus
  have facts := candidates_facts env p names ads _ (fun b hb => (hr host names hnames b hb).2.2) hads hus
  have hord := Props.connect_order env.resolve [t.encoded]
  simp only [List.flatMap_cons, List.flatMap_nil, List.append_nil] at hord
  rw [hord]
  have hloc : (ConnectPeer.expand env.resolve t.encoded).filter (fun u => u.kind == .local) = [] := by
    rw [List.filter_eq_nil_iff]
    intro v hv
    have : (v.kind, v.host, v.portOf) ∈ names.map (fun a => (Kind.tcp, ConnectPeer.bracket a, p)) := by rw [← hus]; exact List.mem_map_of_mem hv
    obtain ⟨b, _, e⟩ := List.mem_map.1 this
    have : v.kind = .tcp := (congrArg (·.1) e).symm
    rw [this]; decide
  rw [hloc, List.nil_append]
  have hreach : ∀ v : Uri, v.kind = .tcp → v.portOf = p → env.address (clean v.host) = some a → reach env w d v = some r := by
    intro v v1 v2 v3
    unfold reach
    rw [v1]
    dsimp only
    rw [v3]
    dsimp only
    rw [v2]
    exact tcp_find hn hm
  unfold best at hb
  cases hf : ads.find? (·.v4) with
  | some b =>
    rw [hf] at hb
    cases hb
    obtain ⟨v, rest, e, v1, v2, v3⟩ := facts.1 _ hf
    rw [e, List.cons_append, List.cons_append, List.cons_append, List.findSome?_cons, hreach v v1 v2 v3]
  | none =>
    rw [hf] at hb
    obtain ⟨f1, f2⟩ := facts.2 hf
    obtain ⟨v, rest, e, v1, v2, v3⟩ := f2 _ hb
    rw [f1, List.nil_append, e, List.cons_append, List.cons_append, List.findSome?_cons, hreach v v1 v2 v3]

theorem reach_domain (env : Env) (w : World) (us : List Uri) (h : ∀ u ∈ us, u.kind ≠ .local) (d d' : Bool) :
    us.findSome? (reach env w d) = us.findSome? (reach env w d') := by
  induction us with
  | nil => rfl
  | cons u us ih =>
    have hu : reach env w d u = reach env w d' u := by
      unfold reach
      cases hk : u.kind with
      | «local» => exact absurd hk (h u List.mem_cons_self)
      | tcp => rfl
      | silkit => rfl
      | undefined => rfl
    rw [List.findSome?_cons, List.findSome?_cons, hu, ih (fun v hv => h v (List.mem_cons_of_mem _ hv))]

theorem expand_tcp {env : Env} {host : Str} {p : Nat} {t : Uri} (hp : p < 65536) (ht : makeTcp host p = some t) :
    ∀ u ∈ ConnectPeer.expand env.resolve t.encoded, u.kind = .tcp := by
  obtain ⟨_, _, k1, _, k3⟩ := ConnectPeer.makeTcp_some hp ht
  have hp' : t.portOf < 65536 := k3 ▸ hp
  unfold ConnectPeer.expand
  rw [tcp_parse ht]
  dsimp only
  rw [if_pos k1]
  cases env.resolve t.host with
  | none => intro u h; cases h
  | some as =>
    dsimp only
    induction as with
    | nil => intro u h; cases h
    | cons a as ih =>
      intro u hu
      unfold ConnectPeer.tcpUris at hu
      cases hm : makeTcp (ConnectPeer.bracket a) t.portOf with
      | none => rw [hm] at hu; cases hu
      | some v =>
        rw [hm] at hu
        rcases List.mem_cons.1 hu with rfl | hu
        · exact (ConnectPeer.makeTcp_some hp' hm).2.2.1
        · exact ih u hu

theorem port_bound {s : Str} {u : Uri} (h : parse s = some u) : u.portOf < 65536 := by
  by_cases hk : u.kind = .local
  · unfold parse at h
    split at h
    · cases h
    · split at h
      · cases h; exact Nat.zero_lt_succ _
      · rename_i hne
        split at h
        · cases h
        · split at h
          · cases h
          · cases h; exact absurd hk hne
  · exact (Props.uri_accepted h hk).2.2.1

/-- What a participant tries. -/
theorem connect_eq (env : Env) (w : World) (uri cwd : Str) {u t : Uri} (hu : parse uri = some u) (ht : makeTcp u.host u.portOf = some t) :
    connect env w uri cwd true = (reach env w true { kind := .local, scheme := "local".toList, path := env.endpoint uri cwd, encoded := "local://".toList ++ env.endpoint uri cwd }).or (connect env w uri cwd false)
      ∧ connect env w uri cwd false = (ConnectPeer.updateUris env.resolve [t.encoded]).findSome? (reach env w false) := by
  have h2 : connect env w uri cwd false = (ConnectPeer.updateUris env.resolve [t.encoded]).findSome? (reach env w false) := by
    unfold connect
    rw [hu]
    dsimp only
    rw [ht]
    rfl
  refine ⟨?_, h2⟩
  have hx := expand_tcp (env := env) (port_bound hu) ht
  have e : ConnectPeer.updateUris env.resolve (["local://".toList ++ env.endpoint uri cwd] ++ [t.encoded]) =
      { kind := .local, scheme := "local".toList, path := env.endpoint uri cwd, encoded := "local://".toList ++ env.endpoint uri cwd } :: ConnectPeer.updateUris env.resolve [t.encoded] := by
    have h1 := Props.connect_order env.resolve (["local://".toList ++ env.endpoint uri cwd] ++ [t.encoded])
    have h3 := Props.connect_order env.resolve [t.encoded]
    have he := Props.connect_other_uri (resolve := env.resolve) (Props.uri_local (env.endpoint uri cwd)) (by simp)
    simp only [List.cons_append, List.nil_append, List.flatMap_cons, List.flatMap_nil, List.append_nil, he] at h1 h3
    rw [List.cons_append, List.nil_append, h1, h3]
    have hloc : (ConnectPeer.expand env.resolve t.encoded).filter (fun u => u.kind == .local) = [] := by
      rw [List.filter_eq_nil_iff]
      intro v hv
      rw [hx v hv]; decide
    simp [hloc]
  have hnl : ∀ u ∈ ConnectPeer.updateUris env.resolve [t.encoded], u.kind ≠ .local := by
    intro v hv
    unfold ConnectPeer.updateUris at hv
    rw [List.mem_mergeSort] at hv
    simp only [List.flatMap_cons, List.flatMap_nil, List.append_nil] at hv
    rw [hx v hv]; decide
  rw [h2]
  unfold connect
  rw [hu]
  dsimp only
  rw [ht]
  dsimp only
  rw [if_pos rfl, e, List.findSome?_cons, reach_domain env w _ hnl true false]
  cases reach env w true _ <;> rfl

/-! ## Histories -/

theorem run_snoc (env : Env) (h : List Op) (o : Op) :
    run env (h ++ [o]) = ((step env (run env h).1 o).1, (run env h).2 ++ (step env (run env h).1 o).2) := by
  unfold run; rw [List.foldl_append]; rfl

theorem op_induction {P : List Op → Prop} (nil : P []) (snoc : ∀ l x, P l → P (l ++ [x])) (h : List Op) : P h := by
  rw [← List.reverse_reverse h]
  induction h.reverse with
  | nil => exact nil
  | cons x l ih => rw [List.reverse_cons]; exact snoc _ x ih

/-- The domain socket of a registry has the name of the URI at whose host and port it listens. -/
def Named (env : Env) (w : World) : Prop := ∀ r path, (r, path) ∈ w.sockets → ∃ host p cwd a, path = env.endpoint (canon host p) cwd ∧ Absolute cwd ∧
  host ≠ [] ∧ '/' ∉ host ∧ p < 65536 ∧ env.listenAddress host = some a ∧ (r, a, p) ∈ w.tcp

structure Inv (env : Env) (w : World) : Prop where
  noConflict : NoConflict w
  named : Named env w
  old : ∀ e ∈ w.tcp, e.1 < w.next

theorem inv_end {env : Env} {w w' : World} (hi : Inv env w) (r : Nat) (h1 : w'.tcp = w.tcp.filter (·.1 ≠ r)) (h2 : w'.sockets = w.sockets.filter (·.1 ≠ r))
    (h3 : w.next ≤ w'.next) : Inv env w' := by
  refine ⟨?_, ?_, ?_⟩
  · intro e1 m1 e2 m2
    rw [h1] at m1 m2
    exact hi.noConflict e1 (List.mem_filter.1 m1).1 e2 (List.mem_filter.1 m2).1
  · intro q path hm
    rw [h2] at hm
    obtain ⟨hm, hq⟩ := List.mem_filter.1 hm
    obtain ⟨host, p, cwd, a, f1, f2, f3, f4, f5, f6, f7⟩ := hi.named q path hm
    exact ⟨host, p, cwd, a, f1, f2, f3, f4, f5, f6, by rw [h1]; exact List.mem_filter.2 ⟨f7, hq⟩⟩
  · intro e m
    rw [h1] at m
    exact Nat.lt_of_lt_of_le (hi.old e (List.mem_filter.1 m).1) h3

theorem inv_same {env : Env} {w w' : World} (hi : Inv env w) (h1 : w'.tcp = w.tcp) (h2 : ∀ x ∈ w'.sockets, x ∈ w.sockets) (h3 : w.next ≤ w'.next) : Inv env w' := by
  refine ⟨?_, ?_, ?_⟩
  · unfold NoConflict; rw [h1]; exact hi.noConflict
  · intro q path hm
    rw [h1]
    exact hi.named q path (h2 _ hm)
  · intro e m
    rw [h1] at m
    exact Nat.lt_of_lt_of_le (hi.old e m) h3

theorem acceptTcp_some {env : Env} {w : World} {host : Str} {port : Nat} {chosen : Fin 65536} {refuse : Bool} {a : Addr} {p : Nat}
    (h : acceptTcp env w host port chosen refuse = some (a, p)) :
    env.listenAddress host = some a ∧ (p = port ∨ p < 65536) ∧ ∀ e ∈ w.tcp, conflict e.2 (a, p) = false := by
  unfold acceptTcp at h
  cases hl : env.listenAddress host with
  | none => rw [hl] at h; cases h
  | some b =>
    rw [hl] at h
    dsimp only at h
    have hq : (if port = 0 then chosen.val else port) = port ∨ (if port = 0 then chosen.val else port) < 65536 := by
      split
      · exact .inr chosen.isLt
      · exact .inl rfl
    revert h hq
    generalize (if port = 0 then chosen.val else port) = q
    intro h hq
    split at h
    · cases h
    · rename_i hc
      cases h
      refine ⟨rfl, hq, ?_⟩
      intro e he
      rw [Bool.or_eq_true, not_or, List.any_eq_true] at hc
      cases hce : conflict e.2 (a, p) with
      | false => rfl
      | true => exact absurd ⟨e, he, hce⟩ hc.2

theorem inv_tcp {env : Env} {w : World} (hi : Inv env w) {a : Addr} {p : Nat} (h : ∀ e ∈ w.tcp, conflict e.2 (a, p) = false) (w' : World)
    (h1 : w'.tcp = (w.next, a, p) :: w.tcp) (h2 : w'.sockets = w.sockets) (h3 : w'.next = w.next + 1) : Inv env w' := by
  refine ⟨?_, ?_, ?_⟩
  · intro e1 m1 e2 m2 hc
    rw [h1] at m1 m2
    rcases List.mem_cons.1 m1 with rfl | m1 <;> rcases List.mem_cons.1 m2 with rfl | m2
    · rfl
    · rw [conflict_symm, h e2 m2] at hc; cases hc
    · rw [h e1 m1] at hc; cases hc
    · exact hi.noConflict e1 m1 e2 m2 hc
  · intro q path hm
    rw [h2] at hm
    obtain ⟨host, p', cwd, b, f1, f2, f3, f4, f5, f6, f7⟩ := hi.named q path hm
    exact ⟨host, p', cwd, b, f1, f2, f3, f4, f5, f6, by rw [h1]; exact List.mem_cons_of_mem _ f7⟩
  · intro e m
    rw [h1] at m
    rw [h3]
    rcases List.mem_cons.1 m with rfl | m
    · exact Nat.lt_succ_self _
    · exact Nat.lt_succ_of_lt (hi.old e m)

/-- What a start does if it is given a TCP socket: the acceptor, the URI that is returned, and the domain socket. -/
theorem start_tcp {env : Env} {w : World} {uri cwd : Str} {domain : Bool} {chosen : Fin 65536} {rt rl : Bool}
    (h : (start env w uri cwd domain chosen rt rl).2.hasTcp = true) :
    ∃ host a p, host ≠ [] ∧ '/' ∉ host ∧ p < 65536 ∧ env.listenAddress host = some a ∧ (∀ e ∈ w.tcp, conflict e.2 (a, p) = false) ∧
      (start env w uri cwd domain chosen rt rl).2.uri = some (canon host p) ∧ (start env w uri cwd domain chosen rt rl).2.id = w.next ∧
      (start env w uri cwd domain chosen rt rl).1.tcp = (w.next, a, p) :: w.tcp ∧
      (start env w uri cwd domain chosen rt rl).1.next = w.next + 1 ∧
      (∀ x ∈ (start env w uri cwd domain chosen rt rl).1.sockets, x ∈ w.sockets ∨ x = (w.next, env.endpoint (canon host p) cwd)) := by
  unfold start at h ⊢
  cases hu : parse uri with
  | none => rw [hu] at h; cases h
  | some u =>
    rw [hu] at h
    dsimp only at h ⊢
    have hlt : ∀ w1 v, listenTcp env w u chosen rt = (w1, some v) → ∃ a p, acceptTcp env w u.host u.portOf chosen rt = some (a, p) ∧
        make u.host p = some v ∧ w1 = { w with tcp := (w.next, a, p) :: w.tcp } := by
      intro w1 v e
      unfold listenTcp at e
      cases ha : acceptTcp env w u.host u.portOf chosen rt with
      | none => rw [ha] at e; cases e
      | some q =>
        rw [ha] at e
        exact ⟨q.1, q.2, rfl, congrArg (·.2) e, (congrArg (·.1) e).symm⟩
    revert h hlt
    generalize listenTcp env w u chosen rt = t
    obtain ⟨w1, m⟩ := t
    intro h hlt
    cases m with
    | none =>
      dsimp only at h
      split at h <;> cases h
    | some v =>
      obtain ⟨a, p, ha, hm, rfl⟩ := hlt w1 v rfl
      dsimp only
      obtain ⟨f1, f2, f3⟩ := acceptTcp_some ha
      have hk : u.kind ≠ .local := fun hk => by rw [local_host hu hk, make_empty] at hm; cases hm
      obtain ⟨g1, g2, g3, _⟩ := Props.uri_accepted hu hk
      have hp : p < 65536 := f2.elim (fun e => e ▸ g3) id
      have he : v.encoded = canon u.host p := parse_encoded hm
      refine ⟨u.host, a, p, g1, g2, hp, f1, f3, ?_⟩
      rw [Option.isSome_some, Bool.true_or, if_pos rfl]
      refine ⟨by show some v.encoded = _; rw [he], rfl, ?_, rfl, ?_⟩
      · unfold listenLocal acceptLocal
        cases domain <;> cases rl <;> rfl
      · intro x hx
        unfold listenLocal acceptLocal at hx
        rw [← he]
        cases domain
        · exact .inl hx
        · cases rl
          · rcases List.mem_cons.1 hx with rfl | hx
            · exact .inr rfl
            · exact .inl hx
          · exact .inl hx

theorem start_none {env : Env} {w : World} {uri cwd : Str} {domain : Bool} {chosen : Fin 65536} {rt rl : Bool} (hi : Inv env w)
    (h : (start env w uri cwd domain chosen rt rl).2.uri = none) :
    (start env w uri cwd domain chosen rt rl).1.tcp = w.tcp ∧ (∀ x ∈ (start env w uri cwd domain chosen rt rl).1.sockets, x ∈ w.sockets) ∧
      (start env w uri cwd domain chosen rt rl).1.next = w.next + 1 := by
  unfold start at h ⊢
  cases hu : parse uri with
  | none => exact ⟨rfl, fun x hx => hx, rfl⟩
  | some u =>
    rw [hu] at h
    dsimp only at h ⊢
    split at h
    · cases h
    · rename_i hc
      rw [if_neg hc]
      have hlo : (domain && !rl) = false := by cases hd : (domain && !rl) with | false => rfl | true => rw [hd] at hc; simp at hc
      have hfl : w.tcp.filter (·.1 ≠ w.next) = w.tcp := List.filter_eq_self.2 (fun e he => by have := hi.old e he; simp; omega)
      have hloc : ∀ (w0 : World) (m : Option Uri), (listenLocal env w0 uri cwd domain m rl).tcp = w0.tcp ∧ (listenLocal env w0 uri cwd domain m rl).sockets = w0.sockets := by
        intro w0 m
        unfold listenLocal acceptLocal
        cases domain
        · exact ⟨rfl, rfl⟩
        · cases rl
          · cases hlo
          · exact ⟨rfl, rfl⟩
      have ht : (listenTcp env w u chosen rt).1.sockets = w.sockets ∧ (listenTcp env w u chosen rt).1.tcp.filter (·.1 ≠ w.next) = w.tcp := by
        unfold listenTcp
        cases acceptTcp env w u.host u.portOf chosen rt with
        | none => exact ⟨rfl, hfl⟩
        | some q =>
          refine ⟨rfl, ?_⟩
          show ((w.next, q.1, q.2) :: w.tcp).filter (·.1 ≠ w.next) = w.tcp
          rw [List.filter_cons_of_neg (by simp)]
          exact hfl
      refine ⟨?_, ?_, rfl⟩
      · show (listenLocal env (listenTcp env w u chosen rt).1 uri cwd domain (listenTcp env w u chosen rt).2 rl).tcp.filter (·.1 ≠ w.next) = w.tcp
        rw [(hloc _ _).1]
        exact ht.2
      · intro x hx
        have hx : x ∈ (listenLocal env (listenTcp env w u chosen rt).1 uri cwd domain (listenTcp env w u chosen rt).2 rl).sockets.filter (·.1 ≠ w.next) := hx
        rw [(hloc _ _).2, ht.1] at hx
        exact (List.mem_filter.1 hx).1

theorem run_inv (env : Env) (h : List Op) : AbsoluteDirs h → AllTcp env h → Inv env (run env h).1 := by
  induction h using op_induction with
  | nil =>
    intro _ _
    exact ⟨fun e m => (by cases m), fun r path m => (by cases m), fun e m => (by cases m)⟩
  | snoc h o ih =>
    intro ha ht
    have ht' : AllTcp env h := fun s hs => ht s (by rw [run_snoc]; exact List.mem_append_left _ hs)
    have hi := ih (fun uri cwd d c t l hm => ha uri cwd d c t l (List.mem_append_left _ hm)) ht'
    rw [run_snoc]
    cases o with
    | stop r => exact inv_end hi r rfl rfl (Nat.le_refl _)
    | crash r => exact inv_end hi r rfl rfl (Nat.le_refl _)
    | start uri cwd domain chosen rt rl =>
      have hs := ht (start env (run env h).1 uri cwd domain chosen rt rl).2 (by rw [run_snoc]; exact List.mem_append_right _ List.mem_cons_self)
      show Inv env (start env (run env h).1 uri cwd domain chosen rt rl).1
      cases hu : (start env (run env h).1 uri cwd domain chosen rt rl).2.uri with
      | none =>
        obtain ⟨h1, h2, h3⟩ := start_none hi hu
        exact inv_same hi h1 h2 (by rw [h3]; exact Nat.le_succ _)
      | some v =>
        obtain ⟨host, a, p, g1, g2, g3, g4, g5, g6, g7, g8, g9, g10⟩ := start_tcp (hs (by rw [hu]; exact fun h => by cases h))
        have hi1 := inv_tcp hi g5 { (run env h).1 with tcp := ((run env h).1.next, a, p) :: (run env h).1.tcp, next := (run env h).1.next + 1 } rfl rfl rfl
        refine ⟨?_, ?_, ?_⟩
        · unfold NoConflict; rw [g8]; exact hi1.noConflict
        · intro q path hm
          rw [g8]
          rcases g10 _ hm with hm | hm
          · exact hi1.named q path hm
          · cases hm
            exact ⟨host, p, cwd, a, rfl, ha uri cwd domain chosen rt rl (by simp), g1, g2, g3, g4, List.mem_cons_self⟩
        · rw [g8, g9]; exact hi1.old

/-- The acceptor of a registry that runs. -/
theorem running_tcp (env : Env) (h : List Op) : AbsoluteDirs h → AllTcp env h → ∀ s, Running env h s → s.uri ≠ none →
    ∃ host a p, host ≠ [] ∧ '/' ∉ host ∧ p < 65536 ∧ env.listenAddress host = some a ∧ s.uri = some (canon host p) ∧ (s.id, a, p) ∈ (run env h).1.tcp := by
  induction h using op_induction with
  | nil => intro _ _ s hs; cases hs.1
  | snoc h o ih =>
    intro ha ht s hs hu
    have ha' : AbsoluteDirs h := fun uri cwd d c t l hm => ha uri cwd d c t l (List.mem_append_left _ hm)
    have ht' : AllTcp env h := fun s hs => ht s (by rw [run_snoc]; exact List.mem_append_left _ hs)
    have hi := run_inv env h ha' ht'
    obtain ⟨hs, hne⟩ := hs
    rw [run_snoc] at hs
    have hne' : ∀ o ∈ h, o ≠ .stop s.id ∧ o ≠ .crash s.id := fun o ho => hne o (List.mem_append_left _ ho)
    rcases List.mem_append.1 hs with hs | hs
    · obtain ⟨host, a, p, g1, g2, g3, g4, g5, g6⟩ := ih ha' ht' s ⟨hs, hne'⟩ hu
      refine ⟨host, a, p, g1, g2, g3, g4, g5, ?_⟩
      rw [run_snoc]
      have ho := hne o (by simp)
      cases o with
      | stop r =>
        refine List.mem_filter.2 ⟨g6, ?_⟩
        simp only [ne_eq, Op.stop.injEq] at ho
        simpa using fun e : s.id = r => ho.1 e.symm
      | crash r =>
        refine List.mem_filter.2 ⟨g6, ?_⟩
        simp only [ne_eq, Op.crash.injEq] at ho
        simpa using fun e : s.id = r => ho.2 e.symm
      | start uri cwd domain chosen rt rl =>
        show _ ∈ (start env (run env h).1 uri cwd domain chosen rt rl).1.tcp
        have hst := ht (start env (run env h).1 uri cwd domain chosen rt rl).2 (by rw [run_snoc]; exact List.mem_append_right _ List.mem_cons_self)
        cases hu' : (start env (run env h).1 uri cwd domain chosen rt rl).2.uri with
        | none => rw [(start_none hi hu').1]; exact g6
        | some v =>
          obtain ⟨_, _, _, _, _, _, _, _, _, _, e, _⟩ := start_tcp (hst (by rw [hu']; exact fun h => by cases h))
          rw [e]
          exact List.mem_cons_of_mem _ g6
    · cases o with
      | stop r => cases hs
      | crash r => cases hs
      | start uri cwd domain chosen rt rl =>
        rw [List.mem_singleton.1 hs] at hu ⊢
        have hst := ht (start env (run env h).1 uri cwd domain chosen rt rl).2 (by rw [run_snoc]; exact List.mem_append_right _ List.mem_cons_self)
        obtain ⟨host, a, p, g1, g2, g3, g4, g5, g6, g7, g8, _⟩ := start_tcp (hst hu)
        refine ⟨host, a, p, g1, g2, g3, g4, g6, ?_⟩
        rw [run_snoc, g7]
        show _ ∈ (start env (run env h).1 uri cwd domain chosen rt rl).1.tcp
        rw [g8]
        exact List.mem_cons_self

end SilKit.Rendezvous
