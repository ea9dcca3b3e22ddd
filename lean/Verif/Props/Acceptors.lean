import Verif.Lemmas.Acceptors
/-!
# C41: the addresses that a participant is told of another one
-/
namespace SilKit.Props
open SilKit.Uri SilKit.Acceptors SilKit.Acceptors.Spec

section
variable {address : Str → Option Address} {remote localAddr : Str} {src dst : Uri} {acceptors r : List Str}

/-- The shape of a successful transformation. -/
private theorem transform_cases (hr : parse remote = some src) (hd : parse localAddr = some dst) (h : transform address remote localAddr acceptors = some r) :
    ∃ us, acceptors.foldl (acceptOne address src dst) (some []) = some us ∧ Good us ∧ (∀ e, e ∈ enc us ↔ ∃ s ∈ acceptors, Told address src dst s e) ∧
      r = (order address dst us).map (·.2) := by
  unfold transform at h
  rw [hr, hd] at h
  simp only at h
  split at h
  · have hp : ∀ s ∈ acceptors, (parse s).isSome = true := by
      apply loop_parses (address := address) (src := src) (dst := dst) acceptors (some [])
      cases he : acceptors.foldl (acceptOne address src dst) (some []) with
      | none => rw [he] at h; cases h
      | some l => rfl
    obtain ⟨us, e, g, m⟩ := loop_some (address := address) hr hd acceptors hp (l := []) ⟨List.Pairwise.nil, fun u hu => by cases hu⟩
    refine ⟨us, e, g, fun e => by rw [m]; simp [enc], ?_⟩
    rw [e] at h
    injection h with h
    exact h.symm
  · cases h

/-- **C41.** Addresses are told if and only if all the given ones are URIs, and those of the two connections are `local` or `tcp` ones. -/
theorem acceptors_told_iff :
    (∃ r, transform address remote localAddr acceptors = some r) ↔
      (∃ src, parse remote = some src ∧ (src.kind = .local ∨ src.kind = .tcp)) ∧
      (∃ dst, parse localAddr = some dst ∧ (dst.kind = .local ∨ dst.kind = .tcp)) ∧ ∀ s ∈ acceptors, ∃ u, parse s = some u := by
  constructor
  · rintro ⟨r, h⟩
    cases hr : parse remote with
    | none => simp [transform, hr] at h
    | some src =>
      cases hd : parse localAddr with
      | none => simp [transform, hr, hd] at h
      | some dst =>
        obtain ⟨us, e, _⟩ := transform_cases hr hd h
        have hp := loop_parses (address := address) (src := src) (dst := dst) acceptors (some []) (by rw [e]; rfl)
        unfold transform at h
        rw [hr, hd] at h
        simp only at h
        split at h
        · rename_i hk
          exact ⟨⟨src, rfl, hk.1⟩, ⟨dst, rfl, hk.2⟩, fun s hs => Option.isSome_iff_exists.1 (hp s hs)⟩
        · cases h
  · rintro ⟨⟨src, hr, ks⟩, ⟨dst, hd, kd⟩, hp⟩
    obtain ⟨us, e, _⟩ := loop_some (address := address) hr hd acceptors (fun s hs => Option.isSome_iff_exists.2 (hp s hs)) (l := []) ⟨List.Pairwise.nil, fun u hu => by cases hu⟩
    refine ⟨(order address dst us).map (·.2), ?_⟩
    unfold transform
    rw [hr, hd]
    simp only
    rw [if_pos ⟨ks, kd⟩, e]
    rfl

/-- **C41.** What is told is what the rule tells for one of the acceptors; all of it, and nothing else. -/
theorem acceptors_told (hr : parse remote = some src) (hd : parse localAddr = some dst) (h : transform address remote localAddr acceptors = some r) (t : Str) :
    t ∈ r ↔ ∃ s ∈ acceptors, Told address src dst s t := by
  obtain ⟨us, _, _, m, rfl⟩ := transform_cases hr hd h
  rw [(order_names dst us).mem_iff, m]

/-- **C41.** An acceptor whose address is not a catch-all one is told as it is. -/
theorem acceptors_others_unchanged (hr : parse remote = some src) (hd : parse localAddr = some dst) (h : transform address remote localAddr acceptors = some r)
    {s : Str} {u : Uri} (hs : s ∈ acceptors) (hu : parse s = some u) (hc : ¬ IsCatchall address u) : s ∈ r :=
  (acceptors_told hr hd h s).2 ⟨s, hs, u, hu, .inl ⟨hc, rfl⟩⟩

/-- **C41.** A catch-all acceptor of the family of the connection that the participant has made to the registry is told with the address of that connection and
its own port. -/
theorem acceptors_catchall_reachable (hr : parse remote = some src) (hd : parse localAddr = some dst) (h : transform address remote localAddr acceptors = some r)
    {s : Str} {u : Uri} (hs : s ∈ acceptors) (hu : parse s = some u) (hc : IsCatchall address u) (hf : SameFamily address u src) :
    "tcp://".toList ++ src.host ++ ":".toList ++ Nat.toDigits 10 u.portOf ∈ r :=
  (acceptors_told hr hd h _).2 ⟨s, hs, u, hu, .inr ⟨hc, src.host, .inr (.inr (.inr ⟨hf, rfl⟩)), rfl⟩⟩

private theorem host_address {u : Uri} (hk : u.kind = .tcp) : addressOf address u = address (unbracket u.host) := by
  unfold addressOf; rw [if_pos hk, unbracket_eq]

private theorem catch_host {u v : Uri} (hu : u.kind = .tcp) (hv : v.kind = .tcp) (e : u.host = v.host) (h : IsCatchall address u) : IsCatchall address v := by
  obtain ⟨a, ha, hu'⟩ := h
  exact ⟨a, by rw [host_address hv, ← e, ← host_address (address := address) hu]; exact ha, hu'⟩

/-- **C41.** Nobody is told a catch-all address. -/
theorem acceptors_no_catchall (hr : parse remote = some src) (hd : parse localAddr = some dst) (h : transform address remote localAddr acceptors = some r)
    (hsrc : ¬ IsCatchall address src) (hdst : ¬ IsCatchall address dst)
    (h4 : ∀ a, address "127.0.0.1".toList = some a → a.unspecified = false) (h6 : ∀ a, address "::1".toList = some a → a.unspecified = false)
    {t : Str} (ht : t ∈ r) {v : Uri} (hv : parse t = some v) : ¬ IsCatchall address v := by
  obtain ⟨s, hs, u, hu, ⟨hc, rfl⟩ | ⟨hc, host, hrep, rfl⟩⟩ := (acceptors_told hr hd h t).1 ht
  · rw [hu] at hv
    injection hv with hv
    rw [← hv]; exact hc
  · have hm : makeTcp host u.portOf = some v := hv
    obtain ⟨_, _, v1, v2, v3⟩ := ConnectPeer.makeTcp_some (parsed_port hu) hm
    intro hcv
    rcases hrep with ⟨_, _, _, rfl⟩ | ⟨_, _, _, rfl⟩ | ⟨_, hf, rfl⟩ | ⟨hf, rfl⟩
    · obtain ⟨a, ha, hun⟩ := hcv
      rw [host_address v1, v2, show unbracket "127.0.0.1".toList = "127.0.0.1".toList by decide +kernel] at ha
      rw [h4 a ha] at hun; cases hun
    · obtain ⟨a, ha, hun⟩ := hcv
      rw [host_address v1, v2, show unbracket "[::1]".toList = "::1".toList by decide +kernel] at ha
      rw [h6 a ha] at hun; cases hun
    · have hk : dst.kind = .tcp := by
        rcases hf with ⟨_, hf⟩ | ⟨_, hf⟩
        · exact v4_tcp hf
        · exact v6_tcp hf
      exact hdst (catch_host v1 hk v2 hcv)
    · have hk : src.kind = .tcp := by
        rcases hf with ⟨_, hf⟩ | ⟨_, hf⟩
        · exact v4_tcp hf
        · exact v6_tcp hf
      exact hsrc (catch_host v1 hk v2 hcv)

/-- **C41.** No address is told twice. -/
theorem acceptors_no_duplicates (h : transform address remote localAddr acceptors = some r) : r.Nodup := by
  obtain ⟨⟨src, hr, _⟩, ⟨dst, hd, _⟩, _⟩ := acceptors_told_iff.1 ⟨r, h⟩
  obtain ⟨us, _, g, _, rfl⟩ := transform_cases hr hd h
  exact (order_names dst us).nodup_iff.2 g.nodup

/-- **C41.** The order: domain sockets first; then, for one on the host of the registry, the loopback addresses before all others, and for others the other way
round. -/
theorem acceptors_order (hd : parse localAddr = some dst) (h : transform address remote localAddr acceptors = some r) :
    r.Pairwise fun a b => ∀ u v, parse a = some u → parse b = some v →
      (v.kind = .local → u.kind = .local) ∧
      (IsHere address dst → IsLoopback address v → u.kind = .local ∨ IsLoopback address u) ∧
      (¬ IsHere address dst → v.kind ≠ .local → ¬ IsLoopback address v → ¬ IsLoopback address u) := by
  obtain ⟨⟨src, hr, _⟩, _⟩ := acceptors_told_iff.1 ⟨r, h⟩
  obtain ⟨us, _, g, _, rfl⟩ := transform_cases hr hd h
  rw [List.pairwise_map]
  have key : ∀ p ∈ order address dst us, ∀ u, parse p.2 = some u → p.1 = penalty address dst u := by
    intro p hp u hu
    obtain ⟨w, hw, e⟩ := List.mem_map.1 ((order_perm dst us).mem_iff.1 hp)
    have hpw := g.parsed w hw
    rw [← e] at hu ⊢
    simp only at hu ⊢
    rw [hpw] at hu
    injection hu with hu
    rw [hu]
  refine (List.pairwise_iff_forall_sublist.2 fun {p q} hpq u v hu hv => ?_)
  have hle : p.1 ≤ q.1 := List.pairwise_iff_forall_sublist.1 (order_sorted dst us) hpq
  have hp : p ∈ order address dst us := hpq.subset (by simp)
  have hq : q ∈ order address dst us := hpq.subset (by simp)
  rw [key p hp u hu, key q hq v hv] at hle
  unfold penalty at hle
  refine ⟨fun hk => ?_, fun hh hl => ?_, fun hh hk hl hlu => ?_⟩
  · rw [if_pos hk] at hle
    apply Classical.byContradiction
    intro hn
    rw [if_neg hn] at hle
    split at hle <;> split at hle <;> omega
  · apply Classical.byContradiction
    intro hn
    have hvk : v.kind ≠ .local := by
      obtain ⟨a, ha, _⟩ := hl
      unfold addressOf at ha
      split at ha
      · rename_i e; rw [e]; decide
      · cases ha
    rw [if_neg (fun e => hn (.inl e)), if_neg (fun e => hn (.inr ((info_loopback u).1 e))), if_neg hvk,
      if_pos ((info_loopback v).2 hl), if_pos ((info_local dst).2 hh), if_pos ((info_local dst).2 hh)] at hle
    omega
  · have huk : u.kind ≠ .local := by
      obtain ⟨a, ha, _⟩ := hlu
      unfold addressOf at ha
      split at ha
      · rename_i e; rw [e]; decide
      · cases ha
    rw [if_neg huk, if_pos ((info_loopback u).2 hlu), if_neg (fun e => hh ((info_local dst).1 e)), if_neg hk, if_neg (fun e => hl ((info_loopback v).1 e)),
      if_neg (fun e => hh ((info_local dst).1 e))] at hle
    omega

end

/-! ## The hypotheses are met -/

/-- A little `make_address`. -/
private def someAddresses (s : Str) : Option Address :=
  if s = "0.0.0.0".toList then some ⟨true, false, true, false⟩
  else if s = "::".toList then some ⟨false, true, true, false⟩
  else if s = "127.0.0.1".toList then some ⟨true, false, false, true⟩
  else if s = "::1".toList then some ⟨false, true, false, true⟩
  else if s = "10.0.0.5".toList then some ⟨true, false, false, false⟩
  else none

example : transform someAddresses "tcp://127.0.0.1:4000".toList "tcp://10.0.0.5:8500".toList ["tcp://0.0.0.0:77".toList, "tcp://[::]:78".toList, "local:///x".toList, "tcp://name:1".toList] =
    some ["local:///x".toList, "tcp://10.0.0.5:77".toList, "tcp://name:1".toList, "tcp://127.0.0.1:77".toList] := by decide +kernel

example : transform someAddresses "local:///reg".toList "local:///reg".toList ["tcp://0.0.0.0:77".toList, "tcp://[::]:78".toList, "tcp://10.0.0.5:1".toList] =
    some ["tcp://127.0.0.1:77".toList, "tcp://[::1]:78".toList, "tcp://10.0.0.5:1".toList] := by decide +kernel

end SilKit.Props
