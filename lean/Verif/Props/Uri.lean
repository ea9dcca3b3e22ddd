import Verif.Lemmas.Uri
/-!
# Connection URIs (C37)

`parse s` is the result of parsing `s`, `none` if this throws.
-/
namespace SilKit.Props
open SilKit.Uri SilKit.Uri.Spec

/-- A URI made from a host, a port and a simulation name has exactly this host, this port and this name. -/
theorem uri_make {host name : Str} {p : Nat} (hh : host ≠ []) (hs : '/' ∉ host) (hp : p < 65536) (hn : Legal name) (hr : NoRoot name) :
    ∃ u, makeSilKit host p name = some u ∧ u.kind = .silkit ∧ u.host = host ∧ u.portOf = p ∧ u.path = name ∧
      u.encoded = "silkit://".toList ++ host ++ ":".toList ++ Nat.toDigits 10 p ++ "/".toList ++ name := by
  unfold makeSilKit
  rw [(validate_iff name name).2 ⟨hn, (dropRoot_id hr).symm⟩]
  simp only
  refine ⟨⟨.silkit, "silkit".toList, host, some p, name, _⟩, (parse_iff (by simp)).2 ⟨host ++ ':' :: print p ++ ('/' :: name), ?_, rfl, ?_, rfl⟩, rfl, rfl, rfl, rfl, rfl⟩
  · have := firstSep_silkit (host ++ ':' :: print p ++ ('/' :: name))
    simpa [List.append_assoc] using this
  · exact (make_grammar hp (.inr ⟨rfl, hn, hr⟩)).2 ⟨hh, hs, rfl, rfl, rfl⟩

/-- Exactly these can be made: the host is not empty and has no slash, the name is legal. A slash at the beginning of the name does not count. -/
theorem uri_make_iff {host name : Str} {p : Nat} (hp : p < 65536) :
    (makeSilKit host p name).isSome = true ↔ host ≠ [] ∧ '/' ∉ host ∧ Legal name := by
  constructor
  · intro h
    unfold makeSilKit at h
    cases hv : validate name with
    | none => rw [hv] at h; cases h
    | some n =>
      rw [hv] at h
      simp only at h
      obtain ⟨u, hu⟩ := Option.isSome_iff_exists.1 h
      obtain ⟨hl, rfl⟩ := (validate_iff _ _).1 hv
      have hd := dropRoot_legal hl
      have hsp : splitScheme ("silkit://".toList ++ host ++ ":".toList ++ print p ++ "/".toList ++ dropRoot name) =
          some ("silkit".toList, host ++ ':' :: print p ++ ('/' :: dropRoot name)) := by
        have := split_iff.2 (firstSep_silkit (host ++ ':' :: print p ++ ('/' :: dropRoot name)))
        simpa [List.append_assoc] using this
      have hk : u.kind ≠ .local := by
        unfold parse at hu
        rw [hsp] at hu
        simp only at hu
        rw [if_neg (by decide)] at hu
        split at hu
        · cases hu
        · split at hu
          · cases hu
          · injection hu with hu
            rw [← hu]
            exact show kindOf "silkit".toList ≠ .local by decide
      obtain ⟨rest, h1, _, h3, _⟩ := (parse_iff hk).1 hu
      have := split_iff.2 h1
      rw [hsp] at this
      injection this with this
      injection this with _ this
      rw [← this] at h3
      obtain ⟨g1, g2, _⟩ := (make_grammar hp (.inr ⟨rfl, hd.1, hd.2⟩)).1 h3
      exact ⟨g1, g2, hl⟩
  · rintro ⟨h1, h2, h3⟩
    have hd := dropRoot_legal h3
    obtain ⟨u, hu, _⟩ := uri_make h1 h2 hp hd.1 hd.2
    have e : makeSilKit host p name = makeSilKit host p (dropRoot name) := by
      unfold makeSilKit
      rw [(validate_iff name _).2 ⟨h3, rfl⟩, (validate_iff (dropRoot name) (dropRoot name)).2 ⟨hd.1, (dropRoot_id hd.2).symm⟩]
    rw [e, hu]; rfl

/-- In the same way without a simulation name. -/
theorem uri_make_unnamed {host : Str} {p : Nat} (hh : host ≠ []) (hs : '/' ∉ host) (hp : p < 65536) :
    (∃ u, make host p = some u ∧ u.kind = .silkit ∧ u.host = host ∧ u.portOf = p ∧ u.path = []) ∧
    (∃ u, makeTcp host p = some u ∧ u.kind = .tcp ∧ u.host = host ∧ u.portOf = p ∧ u.path = []) := by
  have g : Grammar (host ++ ':' :: print p ++ []) host (some p) [] := (make_grammar hp (.inl ⟨rfl, rfl⟩)).2 ⟨hh, hs, rfl, rfl, rfl⟩
  constructor
  · refine ⟨⟨.silkit, "silkit".toList, host, some p, [], _⟩, (parse_iff (by simp)).2 ⟨host ++ ':' :: print p ++ [], ?_, rfl, g, rfl⟩, rfl, rfl, rfl, rfl⟩
    have := firstSep_silkit (host ++ ':' :: print p ++ [])
    simpa [List.append_assoc] using this
  · refine ⟨⟨.tcp, "tcp".toList, host, some p, [], _⟩, (parse_iff (by simp)).2 ⟨host ++ ':' :: print p ++ [], ?_, rfl, g, rfl⟩, rfl, rfl, rfl, rfl⟩
    have := firstSep_tcp (host ++ ':' :: print p ++ [])
    simpa [List.append_assoc] using this

/-- Every URI that is accepted and is not `local` has a host that is not empty, a port and a legal simulation name. -/
theorem uri_accepted {s : Str} {u : Uri} (h : parse s = some u) (hk : u.kind ≠ .local) :
    u.host ≠ [] ∧ '/' ∉ u.host ∧ u.portOf < 65536 ∧ Legal u.path ∧ NoRoot u.path := by
  obtain ⟨rest, _, _, ⟨h1, auth, slash, _, h2, h3, h4⟩, _⟩ := (parse_iff hk).1 h
  refine ⟨h1, fun hm => h2 ?_, ?_, ?_⟩
  · rcases h4 with ⟨_, h4, _⟩ | ⟨_, _, h4, _⟩
    · rw [← h4]; exact hm
    · rw [h4]; exact List.mem_append_left _ hm
  · unfold Uri.portOf
    rcases h4 with ⟨_, _, h4⟩ | ⟨_, p, _, _, ht, h4⟩
    · rw [h4]; simp only; split <;> decide
    · rw [h4]; exact portText_lt ht
  · rcases h3 with ⟨_, h3⟩ | ⟨_, h3⟩
    · rw [h3]; exact ⟨legal_nil, by simp [NoRoot]⟩
    · exact h3

/-- What is accepted, and with which result: `scheme://host`, with a port or not, with a simulation name or not. -/
theorem uri_grammar {s : Str} {u : Uri} (hk : u.kind ≠ .local) : parse s = some u ↔
    ∃ rest, FirstSep s u.scheme rest ∧ u.kind = (schemes.lookup u.scheme).getD .undefined ∧ Grammar rest u.host u.port u.path ∧ u.encoded = s := by
  simp only [parse_iff hk, kind_schemes]

/-- Everything after `local://` is the path. -/
theorem uri_local (path : Str) : parse ("local://".toList ++ path) = some { kind := .local, scheme := "local".toList, path := path, encoded := "local://".toList ++ path } := rfl

/-- A URI that is made from the parts of one that was accepted has the same parts. -/
theorem uri_remake {s : Str} {u : Uri} (h : parse s = some u) (hk : u.kind ≠ .local) :
    ∃ u', makeSilKit u.host u.portOf u.path = some u' ∧ u'.host = u.host ∧ u'.portOf = u.portOf ∧ u'.path = u.path := by
  obtain ⟨h1, h2, h3, h4, h5⟩ := uri_accepted h hk
  obtain ⟨u', e, _, e1, e2, e3, _⟩ := uri_make h1 h2 h3 h4 h5
  exact ⟨u', e, e1, e2, e3⟩

/-- Ports are read by a stream: signs and anything after the digits are accepted. -/
theorem uri_odd_ports :
    (parse "silkit://a:-1".toList).map (·.portOf) = some 65535 ∧ (parse "silkit://a:8500x".toList).map (·.portOf) = some 8500 ∧
    (parse "silkit://a: 1".toList).map (·.portOf) = some 1 ∧ parse "silkit://a:65536".toList = none := by decide +kernel

/-! ## The hypotheses are met -/

example : Legal "my/sim-1".toList ∧ NoRoot "my/sim-1".toList := by
  refine ⟨⟨by decide +kernel, fun a b h => ?_⟩, by unfold NoRoot; decide +kernel⟩
  exact ((validateFrom_false "my/sim-1".toList "my/sim-1".toList).1 (by decide +kernel)).2.2 a b h

example : (makeSilKit "[::1]".toList 1234 "my/sim-1".toList).map (fun u => (u.host, u.portOf, u.path)) = some ("[::1]".toList, 1234, "my/sim-1".toList) := by
  decide +kernel

example : (parse "silkit://localhost".toList).map (fun u => (u.host, u.portOf, u.path)) = some ("localhost".toList, 8500, []) := by decide +kernel

example : parse "silkit://localhost/a//b".toList = none ∧ parse "silkit://localhost/a b".toList = none ∧ parse "silkit://:1/a".toList = none ∧
    parse "localhost:8500".toList = none := by decide +kernel

end SilKit.Props
