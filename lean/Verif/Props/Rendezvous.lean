import Verif.Lemmas.Rendezvous
/-!
# Finding a registry (C64)

`run env h` is the machine after the registries of `h` have been started and have ended, with the results of all starts; `connect env w uri cwd d` is the
registry to which a participant with this URI is connected that runs in the directory `cwd`, with or without domain sockets.
-/
namespace SilKit.Props
open SilKit.Uri SilKit.Rendezvous SilKit.Rendezvous.Spec

/-- If all registries have TCP sockets, a participant finds the same registry with domain sockets as without them. -/
theorem C64_domain_sockets_are_a_shortcut_partial (env : Env) (hr : Readable env) (hn : NoCollisions env) (h : List Op) (ha : AbsoluteDirs h)
    (ht : AllTcp env h) (uri cwd : Str) (hc : Absolute cwd) :
    connect env (run env h).1 uri cwd true = connect env (run env h).1 uri cwd false := by
  have hi := run_inv env h ha ht
  generalize (run env h).1 = w at hi
  cases hu : parse uri with
  | none => unfold connect; rw [hu]
  | some u =>
    cases hm : makeTcp u.host u.portOf with
    | none =>
      unfold connect
      rw [hu]
      dsimp only
      rw [hm]
    | some t =>
      obtain ⟨e1, e2⟩ := connect_eq env w uri cwd hu hm
      rw [e1]
      cases hl : reach env w true { kind := .local, scheme := "local".toList, path := env.endpoint uri cwd, encoded := "local://".toList ++ env.endpoint uri cwd } with
      | none => rfl
      | some r =>
        unfold reach at hl
        dsimp only at hl
        rw [if_pos rfl] at hl
        cases hf : w.files.lookup (env.endpoint uri cwd) with
        | none => rw [hf] at hl; cases hl
        | some q =>
          rw [hf] at hl
          dsimp only at hl
          split at hl
          · rename_i hq
            cases hl
            obtain ⟨host, p, cwd', a, f1, f2, f3, f4, f5, f6, f7⟩ := hi.named r _ (List.contains_iff_mem.1 hq)
            obtain ⟨s1, s2⟩ := same_socket hu f3 f4 f5 hc f2 (endpoint_inj hn f1)
            rw [e2, reach_tcp hr hi.noConflict f5 f3 f6 f7 (by rw [← s1, ← s2]; exact hm) false]
            rfl
          · cases hl

/-- Then the URI that a registry returned leads to it, from all directories, as long as it runs. -/
theorem C64_returned_uri_leads_to_the_registry_partial (env : Env) (hr : Readable env) (hn : NoCollisions env) (h : List Op) (ha : AbsoluteDirs h)
    (ht : AllTcp env h) (s : Started) (hs : Running env h s) (uri : Str) (hu : s.uri = some uri) (cwd : Str) (hc : Absolute cwd) (d : Bool) :
    connect env (run env h).1 uri cwd d = some s.id := by
  obtain ⟨host, a, p, g1, g2, g3, g4, g5, g6⟩ := running_tcp env h ha ht s hs (by rw [hu]; exact fun h => by cases h)
  have hi := run_inv env h ha ht
  rw [hu] at g5
  cases g5
  obtain ⟨u, k1, _, k3, k4, _⟩ := canon_parts g1 g2 g3
  obtain ⟨_, t, t1, _⟩ := uri_make_unnamed g1 g2 g3
  have hm : makeTcp u.host u.portOf = some t := by rw [k3, k4]; exact t1
  have key : connect env (run env h).1 (canon host p) cwd false = some s.id := by
    rw [(connect_eq env _ _ cwd k1 hm).2]
    exact reach_tcp hr hi.noConflict g3 g1 g4 g6 t1 false
  cases d
  · exact key
  · rw [C64_domain_sockets_are_a_shortcut_partial env hr hn h ha ht _ cwd hc]; exact key

/-- Then all participants whose URIs have the same host and port are connected to the same registry, whatever the scheme and the name of the simulation,
from all directories. -/
theorem C64_same_host_and_port_same_registry_partial (env : Env) (hr : Readable env) (hn : NoCollisions env) (h : List Op) (ha : AbsoluteDirs h)
    (ht : AllTcp env h) (uri1 uri2 : Str) (u1 u2 : Uri) (h1 : parse uri1 = some u1) (h2 : parse uri2 = some u2) (hh : u1.host = u2.host)
    (hp : u1.portOf = u2.portOf) (cwd1 cwd2 : Str) (hc1 : Absolute cwd1) (hc2 : Absolute cwd2) (d1 d2 : Bool) :
    connect env (run env h).1 uri1 cwd1 d1 = connect env (run env h).1 uri2 cwd2 d2 := by
  have key : ∀ (uri cwd : Str) (d : Bool), Absolute cwd → connect env (run env h).1 uri cwd d = connect env (run env h).1 uri [] false := by
    intro uri cwd d hc
    have e : connect env (run env h).1 uri cwd d = connect env (run env h).1 uri cwd false := by
      cases d
      · rfl
      · exact C64_domain_sockets_are_a_shortcut_partial env hr hn h ha ht _ cwd hc
    rw [e]
    rfl
  rw [key uri1 cwd1 d1 hc1, key uri2 cwd2 d2 hc2]
  unfold connect
  rw [h1, h2]
  dsimp only
  rw [hh, hp]
  rfl

/-- A registry that has a domain socket is found right after its start, in its directory, with the URI that it returned. -/
theorem C64_found_after_start (env : Env) (w : World) (uri cwd : Str) (domain : Bool) (c : Fin 65536) (rt rl : Bool) (v : Str)
    (hs : (start env w uri cwd domain c rt rl).2.uri = some v) (hl : (start env w uri cwd domain c rt rl).2.hasLocal = true) (u : Uri)
    (hv : parse v = some u) (hk : u.kind ≠ .local) :
    connect env (start env w uri cwd domain c rt rl).1 v cwd true = some (start env w uri cwd domain c rt rl).2.id := by
  obtain ⟨g1, g2, g3, _⟩ := uri_accepted hv hk
  obtain ⟨_, t, hm, _⟩ := uri_make_unnamed g1 g2 g3
  rw [(connect_eq env _ v cwd hv hm).1]
  have key : reach env (start env w uri cwd domain c rt rl).1 true { kind := .local, scheme := "local".toList, path := env.endpoint v cwd, encoded := "local://".toList ++ env.endpoint v cwd }
      = some (start env w uri cwd domain c rt rl).2.id := by
    unfold start at hs hl ⊢
    cases hu : parse uri with
    | none => rw [hu] at hs; cases hs
    | some u' =>
      rw [hu] at hs hl
      dsimp only at hs hl ⊢
      have hw : (listenTcp env w u' c rt).1.next = w.next := by
        unfold listenTcp
        cases acceptTcp env w u'.host u'.portOf c rt <;> rfl
      revert hs hl hw
      generalize listenTcp env w u' c rt = x
      obtain ⟨w1, m⟩ := x
      intro hl hs hw
      dsimp only at hs hl hw ⊢
      split at hs
      · rename_i hc
        rw [if_pos hc] at hl ⊢
        have hd : domain = true ∧ rl = false := by
          have hl : (domain && !rl) = true := hl
          cases domain <;> cases rl <;> first | exact ⟨rfl, rfl⟩ | cases hl
        obtain ⟨rfl, rfl⟩ := hd
        have he : uriOf m uri = v := by rw [← parse_encoded hu]; exact Option.some.inj hs
        unfold reach listenLocal acceptLocal
        dsimp only
        rw [if_pos rfl, if_pos rfl, if_neg (by simp), he, hw]
        dsimp only
        rw [List.lookup_cons_self]
        simp
      · cases hs
  rw [key]
  rfl

/-! ## A machine -/

/-- A machine on which `localhost` is 127.0.0.1. -/
def machine : Env where
  dns name := if name = "localhost".toList then some ["127.0.0.1".toList] else none
  address a := if a = "127.0.0.1".toList then some ⟨true, a⟩ else none
  hash a := a
  tmp := "/tmp".toList

theorem dotted_mem (s : Str) : ∀ c ∈ s, c = '.' ∨ ∃ p ∈ dotted s, c ∈ p := by
  induction s with
  | nil => intro c h; cases h
  | cons x xs ih =>
    intro c hc
    unfold dotted
    by_cases hx : x = '.'
    · rw [if_pos hx]
      rcases List.mem_cons.1 hc with rfl | hc
      · exact .inl hx
      · rcases ih c hc with h | ⟨p, hp, hm⟩
        · exact .inl h
        · exact .inr ⟨p, List.mem_cons_of_mem _ hp, hm⟩
    · rw [if_neg hx]
      cases hd : dotted xs with
      | nil =>
        rcases List.mem_cons.1 hc with rfl | hc
        · exact .inr ⟨[c], List.mem_cons_self, List.mem_cons_self⟩
        · rcases ih c hc with h | ⟨p, hp, _⟩
          · exact .inl h
          · rw [hd] at hp; cases hp
      | cons q qs =>
        rcases List.mem_cons.1 hc with rfl | hc
        · exact .inr ⟨c :: q, List.mem_cons_self, List.mem_cons_self⟩
        · rcases ih c hc with h | ⟨p, hp, hm⟩
          · exact .inl h
          · rw [hd] at hp
            rcases List.mem_cons.1 hp with rfl | hp
            · exact .inr ⟨x :: p, List.mem_cons_self, List.mem_cons_of_mem _ hm⟩
            · exact .inr ⟨p, List.mem_cons_of_mem _ hp, hm⟩

theorem literal_facts {name : Str} (h : (isIpV4 name || (bracketed name).isSome) = true) : name ≠ [] ∧ '/' ∉ name := by
  rcases Bool.or_eq_true _ _ ▸ h with h | h
  · unfold isIpV4 at h
    rw [Bool.and_eq_true, List.all_eq_true] at h
    refine ⟨?_, ?_⟩
    · rintro rfl; exact absurd h.1 (by decide)
    · intro hm
      rcases dotted_mem name _ hm with h' | ⟨p, hp, hc⟩
      · exact absurd h' (by decide)
      · have := h.2 p hp
        rw [Bool.and_eq_true, List.all_eq_true] at this
        exact absurd (this.2 _ hc) (by decide)
  · unfold bracketed at h
    split at h
    · rename_i rest
      split at h
      · rename_i hc
        obtain ⟨hl, _, hd⟩ := hc
        refine ⟨List.cons_ne_nil _ _, ?_⟩
        intro hm
        obtain ⟨l, rfl⟩ := List.getLast?_eq_some_iff.1 hl
        rw [List.dropLast_concat] at hd
        rcases List.mem_cons.1 hm with hm | hm
        · exact absurd hm (by decide)
        · rcases List.mem_append.1 hm with hm | hm
          · exact absurd (List.all_eq_true.1 hd _ hm) (by decide)
          · exact absurd (List.mem_singleton.1 hm) (by decide)
      · cases h
    · cases h

theorem machine_readable : Readable machine := by
  intro host names hr a ha
  refine ⟨?_, ?_, ?_⟩
  · unfold Env.resolve at hr
    split at hr
    · rename_i hl
      cases hr
      rw [List.mem_singleton.1 ha]
      exact (literal_facts hl).1
    · have hr : (if host = "localhost".toList then some ["127.0.0.1".toList] else none) = some names := hr
      split at hr
      · cases hr; rw [List.mem_singleton.1 ha]; decide
      · cases hr
  · unfold Env.resolve at hr
    split at hr
    · rename_i hl
      cases hr
      rw [List.mem_singleton.1 ha]
      exact (literal_facts hl).2
    · have hr : (if host = "localhost".toList then some ["127.0.0.1".toList] else none) = some names := hr
      split at hr
      · cases hr; rw [List.mem_singleton.1 ha]; decide
      · cases hr
  · intro ad had
    have had : (if a = "127.0.0.1".toList then some (⟨true, a⟩ : Addr) else none) = some ad := had
    split at had
    · rename_i e
      cases had
      subst e
      exact .inl ⟨rfl, by decide, by decide⟩
    · cases had

theorem machine_hash : NoCollisions machine := fun _ _ h => h

def uri8500 : Str := "silkit://localhost:8500".toList
def home : Str := "/home".toList

/-- Two registries on two ports, of which the first one ends and is started again; the third one is given a port. -/
def working : List Op :=
  [.start uri8500 home true 1 false false, .start "silkit://localhost:8501/sim".toList home true 1 false true, .crash 0, .start uri8500 home true 1 false false,
   .start "silkit://localhost:0".toList "/".toList true 4711 false false]

theorem working_results : (run machine working).2 =
    [⟨0, some uri8500, true, true⟩, ⟨1, some "silkit://localhost:8501".toList, true, false⟩, ⟨2, some uri8500, true, true⟩,
     ⟨3, some "silkit://localhost:4711".toList, true, true⟩] := by decide +kernel

theorem working_ok : AbsoluteDirs working ∧ AllTcp machine working := by
  refine ⟨?_, ?_⟩
  · intro uri cwd d c t l hm
    simp only [working, List.mem_cons, Op.start.injEq, List.not_mem_nil, or_false, reduceCtorEq, false_or] at hm
    rcases hm with h | h | h | h <;> rw [h.2.1] <;> unfold Absolute <;> decide
  · intro s hs _
    rw [working_results] at hs
    simp only [List.mem_cons, List.not_mem_nil, or_false] at hs
    rcases hs with rfl | rfl | rfl | rfl <;> rfl

/-- The third one is found with its URI. -/
example (cwd : Str) (hc : Absolute cwd) (d : Bool) : connect machine (run machine working).1 uri8500 cwd d = some 2 :=
  C64_returned_uri_leads_to_the_registry_partial machine machine_readable machine_hash working working_ok.1 working_ok.2 ⟨2, some uri8500, true, true⟩
    ⟨by rw [working_results]; decide, by
      intro o ho
      simp only [working, List.mem_cons, List.not_mem_nil, or_false] at ho
      rcases ho with rfl | rfl | rfl | rfl | rfl <;> exact ⟨(by decide), (by decide)⟩⟩ _ rfl cwd hc d

/-- A name of a simulation makes no difference. -/
example : connect machine (run machine working).1 "silkit://localhost:8500/sim".toList home true = connect machine (run machine working).1 "tcp://localhost".toList "/tmp".toList false :=
  C64_same_host_and_port_same_registry_partial machine machine_readable machine_hash working working_ok.1 working_ok.2 _ _
    ⟨.silkit, "silkit".toList, "localhost".toList, some 8500, "sim".toList, "silkit://localhost:8500/sim".toList⟩
    ⟨.tcp, "tcp".toList, "localhost".toList, none, [], "tcp://localhost".toList⟩ (by decide +kernel) (by decide +kernel) rfl rfl _ _ (by unfold Absolute; decide)
    (by unfold Absolute; decide) _ _

/-- A registry that could not get its port is found right after its start. -/
example : connect machine (start machine {} uri8500 home true 1 true false).1 uri8500 home true = some 0 :=
  C64_found_after_start machine {} uri8500 home true 1 true false uri8500 (by decide +kernel) (by decide +kernel)
    ⟨.silkit, "silkit".toList, "localhost".toList, some 8500, [], uri8500⟩ (by decide +kernel) (by decide)

/-! ## Without TCP sockets -/

/-- A second registry that is started with the URI of one that runs, in any directory, gets no TCP socket, but its start succeeds with the same URI. From then
on, participants in its directory that use domain sockets are connected to the new registry, and all others to the old one. -/
theorem C64_second_registry_splits (env : Env) (hr : Readable env) (hn : NoCollisions env) (h : List Op) (ha : AbsoluteDirs h) (ht : AllTcp env h)
    (s : Started) (hs : Running env h s) (uri : Str) (hu : s.uri = some uri) (u : Uri) (hp : parse uri = some u) (hz : u.portOf ≠ 0)
    (cwd : Str) (c : Fin 65536) (refuse : Bool) (cwd' : Str) (hc' : Absolute cwd') :
    let x := start env (run env h).1 uri cwd true c refuse false
    x.2.uri = some uri ∧ x.2.hasTcp = false ∧ connect env x.1 uri cwd true = some x.2.id ∧ connect env x.1 uri cwd' false = some s.id := by
  intro x
  obtain ⟨host, a, p, g1, g2, g3, g4, g5, g6⟩ := running_tcp env h ha ht s hs (by rw [hu]; exact fun h => by cases h)
  rw [hu] at g5
  cases g5
  obtain ⟨v, k1, k2, k3, k4, k5⟩ := canon_parts g1 g2 g3
  rw [hp] at k1
  cases k1
  have hacc : acceptTcp env (run env h).1 u.host u.portOf c refuse = none := by
    unfold acceptTcp
    rw [k3, g4, k4]
    dsimp only
    have hpz : (if p = 0 then c.val else p) = p := if_neg (by rw [← k4]; exact hz)
    rw [hpz]
    refine if_pos ?_
    rw [Bool.or_eq_true, List.any_eq_true]
    exact .inr ⟨_, g6, by unfold conflict; simp [serves_self]⟩
  have hlt : listenTcp env (run env h).1 u c refuse = ((run env h).1, none) := by unfold listenTcp; rw [hacc]
  have hx : x = ({ listenLocal env (run env h).1 (canon host p) cwd true none false with next := (run env h).1.next + 1 }, ⟨(run env h).1.next, some u.encoded, false, true⟩) := by
    show start env (run env h).1 (canon host p) cwd true c refuse false = _
    unfold start
    rw [hp]
    dsimp only
    rw [hlt]
    rfl
  have hxu : x.2.uri = some (canon host p) := by rw [hx]; show some u.encoded = _; rw [k5]
  refine ⟨hxu, by rw [hx], ?_, ?_⟩
  · exact C64_found_after_start env _ _ cwd true c refuse false (canon host p) hxu (by show x.2.hasLocal = true; rw [hx]) u hp (by rw [k2]; decide)
  · have := C64_returned_uri_leads_to_the_registry_partial env hr hn h ha ht s hs _ hu cwd' hc' false
    rw [← this]
    have htcp : x.1.tcp = (run env h).1.tcp := by rw [hx]; rfl
    have hre : reach env x.1 false = reach env (run env h).1 false := by
      funext t
      unfold reach
      rw [htcp]
      rfl
    unfold connect
    rw [hre]

example : let x := start machine (run machine working).1 uri8500 home true 1 false false
    x.2.uri = some uri8500 ∧ x.2.hasTcp = false ∧ connect machine x.1 uri8500 home true = some 4 ∧ connect machine x.1 uri8500 home false = some 2 := by
  intro x
  have h := C64_second_registry_splits machine machine_readable machine_hash working working_ok.1 working_ok.2 ⟨2, some uri8500, true, true⟩
    ⟨by rw [working_results]; decide, by
      intro o ho
      simp only [working, List.mem_cons, List.not_mem_nil, or_false] at ho
      rcases ho with rfl | rfl | rfl | rfl | rfl <;> exact ⟨(by decide), (by decide)⟩⟩ uri8500 rfl
    ⟨.silkit, "silkit".toList, "localhost".toList, some 8500, [], uri8500⟩ (by decide +kernel) (by decide) home 1 false home (by unfold Absolute; decide)
  have e : (start machine (run machine working).1 uri8500 home true 1 false false).2.id = 4 := by decide +kernel
  exact ⟨h.1, h.2.1, e ▸ h.2.2.1, h.2.2.2⟩

theorem nobody {env : Env} {w : World} (h1 : w.tcp = []) (uri cwd : Str) : connect env w uri cwd false = none := by
  unfold connect
  split
  · rfl
  · split
    · rfl
    · rw [List.findSome?_eq_none_iff]
      intro t _
      unfold reach
      rw [h1]
      split
      · split <;> rfl
      · rfl
      · rfl

theorem only_socket {env : Env} {w : World} (h1 : w.tcp = []) (uri cwd : Str) (h : ∀ r, w.files.lookup (env.endpoint uri cwd) = some r → (r, env.endpoint uri cwd) ∉ w.sockets) (d : Bool) :
    connect env w uri cwd d = none := by
  cases d
  · exact nobody h1 uri cwd
  · cases hu : parse uri with
    | none => unfold connect; rw [hu]
    | some u =>
      cases hm : makeTcp u.host u.portOf with
      | none =>
        unfold connect
        rw [hu]
        dsimp only
        rw [hm]
      | some t =>
        rw [(connect_eq env w uri cwd hu hm).1, nobody h1]
        unfold reach
        dsimp only
        rw [if_pos rfl]
        cases hf : w.files.lookup (env.endpoint uri cwd) with
        | none => rfl
        | some q =>
          dsimp only
          rw [if_neg (by rw [List.contains_iff_mem]; exact h q hf)]
          rfl

/-- When one of two registries with the same URI in the same directory ends, it takes the domain socket of the other one with it: the second registry runs, but
nobody can find it any more. -/
theorem C64_end_takes_the_socket_of_another :
    ∃ h, (run machine h).2 = [⟨0, some uri8500, true, true⟩, ⟨1, some uri8500, false, true⟩] ∧ (∀ o ∈ h, o ≠ .stop 1 ∧ o ≠ .crash 1) ∧
      ∀ uri cwd d, connect machine (run machine h).1 uri cwd d = none := by
  refine ⟨[.start uri8500 home true 1 false false, .start uri8500 home true 1 false false, .stop 0], by decide +kernel, by decide, ?_⟩
  intro uri cwd d
  refine only_socket (by decide +kernel) uri cwd ?_ d
  have : (run machine [.start uri8500 home true 1 false false, .start uri8500 home true 1 false false, .stop 0]).1.files = [] := by decide +kernel
  rw [this]
  intro r hr
  cases hr

/-- A registry without TCP socket is found with the URI as it was given to it, in its directory; but not with a name of a simulation, without the port, or from
another directory. -/
theorem C64_without_tcp_the_text_counts :
    let w := (start machine {} uri8500 home true 1 true false).1
    (start machine {} uri8500 home true 1 true false).2.uri = some uri8500 ∧ connect machine w uri8500 home true = some 0 ∧
      connect machine w "silkit://localhost:8500/sim".toList home true = none ∧ connect machine w "silkit://localhost".toList home true = none ∧
      connect machine w uri8500 "/tmp".toList true = none := by
  intro w
  have ht : w.tcp = [] := by decide +kernel
  refine ⟨by decide +kernel, ?_, ?_, ?_, ?_⟩
  · exact C64_found_after_start machine {} uri8500 home true 1 true false uri8500 (by decide +kernel) (by decide +kernel)
      ⟨.silkit, "silkit".toList, "localhost".toList, some 8500, [], uri8500⟩ (by decide +kernel) (by decide)
  · refine only_socket ht _ _ (fun r hr => ?_) _
    have : w.files.lookup (machine.endpoint "silkit://localhost:8500/sim".toList home) = none := by decide +kernel
    rw [this] at hr; cases hr
  · refine only_socket ht _ _ (fun r hr => ?_) _
    have : w.files.lookup (machine.endpoint "silkit://localhost".toList home) = none := by decide +kernel
    rw [this] at hr; cases hr
  · refine only_socket ht _ _ (fun r hr => ?_) _
    have : w.files.lookup (machine.endpoint uri8500 "/tmp".toList) = none := by decide +kernel
    rw [this] at hr; cases hr

/-! ## Other URIs -/

/-- A registry can be started with a `local` URI, but no participant can be connected with such a URI. -/
theorem C64_local_uri_cannot_be_joined (env : Env) (w : World) (path cwd : Str) (c : Fin 65536) (refuse : Bool) :
    (start env w ("local://".toList ++ path) cwd true c refuse false).2.uri = some ("local://".toList ++ path) ∧
      ∀ (w' : World) (cwd' : Str) (d : Bool), connect env w' ("local://".toList ++ path) cwd' d = none := by
  constructor
  · unfold start
    rw [uri_local]
    dsimp only
    have : (listenTcp env w { kind := .local, scheme := "local".toList, path := path, encoded := "local://".toList ++ path } c refuse).2 = none := by
      unfold listenTcp
      split
      · rfl
      · exact make_empty _
    rw [this]
    rfl
  · intro w' cwd' d
    unfold connect
    rw [uri_local]
    have : makeTcp [] 0 = none := by decide +kernel
    have e : makeTcp ([] : Str) (Uri.portOf { kind := .local, scheme := "local".toList, path := path, encoded := "local://".toList ++ path }) = none := this
    dsimp only
    rw [e]

/-- A registry that is given an IPv6 address in brackets never gets a TCP socket, as `make_address` does not read the brackets. -/
theorem C64_no_tcp_on_ipv6_addresses (env : Env) (host : Str) (hb : (bracketed host).isSome = true) (ha : env.address host = none) (w : World) (uri cwd : Str) (u : Uri)
    (hu : parse uri = some u) (hh : u.host = host) (domain : Bool) (c : Fin 65536) (rt rl : Bool) : (start env w uri cwd domain c rt rl).2.hasTcp = false := by
  have hl : env.listenAddress u.host = none := by
    unfold Env.listenAddress Env.resolve
    rw [hh, hb, Bool.or_true, if_pos rfl, if_neg (by rintro rfl; cases hb)]
    simp [ha]
  have ht : listenTcp env w u c rt = (w, none) := by unfold listenTcp acceptTcp; rw [hl]
  unfold start
  rw [hu]
  dsimp only
  rw [ht]
  dsimp only
  split <;> rfl

example : (bracketed "[::1]".toList).isSome = true ∧ (parse "silkit://[::1]:8500".toList).map (·.host) = some "[::1]".toList := by decide +kernel

/-- A machine with an IPv6 address that has a letter, as `make_address` reads it. -/
def letters : Env where
  dns name := if name = "node".toList then some ["2001:db8::a".toList] else none
  address a := if a = "2001:db8::a".toList then some ⟨false, a⟩ else none
  hash a := a
  tmp := "/tmp".toList

/-- A registry that listens at an IPv6 address with letters is not found by TCP: the brackets that are put around the address are only removed if there are
digits and colons between them. -/
theorem C64_ipv6_addresses_with_letters_are_not_reached :
    (run letters [.start "silkit://node:8500".toList home false 1 false false]).2 = [⟨0, some "silkit://node:8500".toList, true, false⟩] ∧
      ∀ cwd d, connect letters (run letters [.start "silkit://node:8500".toList home false 1 false false]).1 "silkit://node:8500".toList cwd d = none := by
  refine ⟨by decide +kernel, ?_⟩
  intro cwd d
  have hu : parse "silkit://node:8500".toList = some ⟨.silkit, "silkit".toList, "node".toList, some 8500, [], "silkit://node:8500".toList⟩ := by decide +kernel
  have hm : makeTcp "node".toList 8500 = some ⟨.tcp, "tcp".toList, "node".toList, some 8500, [], "tcp://node:8500".toList⟩ := by decide +kernel
  obtain ⟨e1, e2⟩ := connect_eq letters (run letters [.start "silkit://node:8500".toList home false 1 false false]).1 "silkit://node:8500".toList cwd hu hm
  have hf : connect letters (run letters [.start "silkit://node:8500".toList home false 1 false false]).1 "silkit://node:8500".toList cwd false = none := by
    rw [e2, List.findSome?_eq_none_iff]
    intro v hv
    unfold ConnectPeer.updateUris at hv
    rw [List.mem_mergeSort] at hv
    have : [("tcp://node:8500".toList : Str)].flatMap (ConnectPeer.expand letters.resolve) =
        [⟨.tcp, "tcp".toList, "[2001:db8::a]".toList, some 8500, [], "tcp://[2001:db8::a]:8500".toList⟩] := by decide +kernel
    rw [this] at hv
    rw [List.mem_singleton.1 hv]
    decide +kernel
  cases d
  · exact hf
  · rw [e1, hf]
    have : (run letters [.start "silkit://node:8500".toList home false 1 false false]).1.files = [] := by decide +kernel
    unfold reach
    rw [this]
    rfl

end SilKit.Props
