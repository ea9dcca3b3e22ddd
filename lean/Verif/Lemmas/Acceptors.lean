import Verif.Spec.Acceptors
import Verif.Lemmas.ConnectPeer
/-!
# Lemmas about the addresses that others are told
-/
namespace SilKit.Acceptors
open SilKit.Uri Spec

/-! ## The set -/

theorem strLt_irrefl (a : Str) : strLt a a = false := by
  induction a with
  | nil => rfl
  | cons x xs ih => simp [strLt, ih]

theorem strLt_trans : ∀ {a b c : Str}, strLt a b = true → strLt b c = true → strLt a c = true
  | _, [], [], _, h => by simp [strLt] at h
  | [], [], _ :: _, h, _ => by simp [strLt] at h
  | _ :: _, [], _, h, _ => by simp [strLt] at h
  | [], _ :: _, [], _, h => by simp [strLt] at h
  | _ :: _, _ :: _, [], _, h => by simp [strLt] at h
  | [], _ :: _, _ :: _, _, _ => rfl
  | x :: xs, y :: ys, z :: zs, h1, h2 => by
    simp only [strLt] at h1 h2 ⊢
    split at h1
    · split at h2
      · rw [if_pos (by omega)]
      · split at h2
        · cases h2
        · rw [if_pos (by omega)]
    · split at h1
      · cases h1
      · split at h2
        · rw [if_pos (by omega)]
        · split at h2
          · cases h2
          · rw [if_neg (by omega), if_neg (by omega)]
            exact strLt_trans h1 h2

theorem strLt_eq : ∀ {a b : Str}, strLt a b = false → strLt b a = false → a = b
  | [], [], _, _ => rfl
  | [], _ :: _, h, _ => by simp [strLt] at h
  | _ :: _, [], _, h => by simp [strLt] at h
  | x :: xs, y :: ys, h1, h2 => by
    simp only [strLt] at h1 h2
    split at h1
    · cases h1
    · split at h1
      · rename_i h
        rw [if_pos h] at h2; cases h2
      · rename_i n1 n2
        rw [if_neg n2, if_neg n1] at h2
        have : x = y := Char.toNat_inj.1 (by omega)
        rw [this, strLt_eq h1 h2]

def enc (l : List Uri) : List Str := l.map (·.encoded)

theorem mem_insertUri (u : Uri) (l : List Uri) (e : Str) : e ∈ enc (insertUri u l) ↔ e = u.encoded ∨ e ∈ enc l := by
  induction l with
  | nil => simp [insertUri, enc]
  | cons v vs ih =>
    simp only [insertUri]
    split
    · simp [enc]
    · split
      · simp only [enc, List.map_cons, List.mem_cons] at ih ⊢
        rw [ih]
        constructor
        · rintro (h | h | h)
          · exact .inr (.inl h)
          · exact .inl h
          · exact .inr (.inr h)
        · rintro (h | h | h)
          · exact .inr (.inl h)
          · exact .inl h
          · exact .inr (.inr h)
      · rename_i h1 h2
        have : u.encoded = v.encoded := strLt_eq (by simpa using h1) (by simpa using h2)
        simp only [enc, List.map_cons, List.mem_cons, this]
        constructor
        · exact .inr
        · rintro (h | h)
          · exact .inl h
          · exact h

theorem insertUri_mem {u w : Uri} {l : List Uri} (h : w ∈ insertUri u l) : w = u ∨ w ∈ l := by
  induction l with
  | nil => simpa [insertUri] using h
  | cons v vs ih =>
    simp only [insertUri] at h
    split at h
    · simpa using h
    · split at h
      · rcases List.mem_cons.1 h with rfl | h
        · right; simp
        · rcases ih h with h | h
          · exact .inl h
          · right; simp [h]
      · exact .inr h

theorem insertUri_sorted {u : Uri} {l : List Uri} (h : (enc l).Pairwise (strLt · · = true)) : (enc (insertUri u l)).Pairwise (strLt · · = true) := by
  induction l with
  | nil => simp [insertUri, enc]
  | cons v vs ih =>
    have h' := h
    simp only [enc, List.map_cons, List.pairwise_cons] at h'
    simp only [insertUri]
    split
    · rename_i hlt
      simp only [enc, List.map_cons, List.pairwise_cons]
      refine ⟨fun e he => ?_, h'⟩
      rcases List.mem_cons.1 he with rfl | he
      · exact hlt
      · exact strLt_trans hlt (h'.1 e he)
    · split
      · rename_i hlt
        have := ih h'.2
        simp only [enc, List.map_cons, List.pairwise_cons]
        refine ⟨fun e he => ?_, this⟩
        rcases (mem_insertUri u vs e).1 he with rfl | he
        · exact hlt
        · exact h'.1 e he
      · exact h

structure Good (l : List Uri) : Prop where
  sorted : (enc l).Pairwise (strLt · · = true)
  parsed : ∀ u ∈ l, parse u.encoded = some u

theorem Good.insert {l : List Uri} (g : Good l) {u : Uri} (h : parse u.encoded = some u) : Good (insertUri u l) :=
  ⟨insertUri_sorted g.sorted, fun w hw => by
    rcases insertUri_mem hw with rfl | hw
    · exact h
    · exact g.parsed w hw⟩

theorem Good.nodup {l : List Uri} (g : Good l) : (enc l).Nodup :=
  g.sorted.imp fun {a b} h e => by subst e; rw [strLt_irrefl] at h; cases h

theorem parse_encoded {s : Str} {u : Uri} (h : parse s = some u) : u.encoded = s := by
  unfold parse at h
  cases hs : splitScheme s with
  | none => rw [hs] at h; cases h
  | some q =>
    rw [hs] at h
    simp only at h
    split at h
    · injection h with h; rw [← h]
    · split at h
      · cases h
      · split at h
        · cases h
        · injection h with h; rw [← h]

theorem parse_self {s : Str} {u : Uri} (h : parse s = some u) : parse u.encoded = some u := by rw [parse_encoded h]; exact h

/-! ## What `GetUriInfo` tells -/

variable {address : Str → Option Address}

theorem unbracket_eq (h : Str) : unbracket h = h.filter fun c => c != '[' && c != ']' := by
  unfold unbracket
  congr 1
  funext c
  cases h1 : c == '[' <;> cases h2 : c == ']' <;> simp [bne, h1, h2]

theorem info_catchall (u : Uri) : (getInfo address u).catchall = true ↔ IsCatchall address u := by
  unfold getInfo IsCatchall addressOf
  rw [← unbracket_eq]
  cases hk : u.kind with
  | tcp => cases ha : address (unbracket u.host) <;> simp [ha]
  | _ => simp

theorem info_loopback (u : Uri) : (getInfo address u).loopback = true ↔ IsLoopback address u := by
  unfold getInfo IsLoopback addressOf
  rw [← unbracket_eq]
  cases hk : u.kind with
  | tcp => cases ha : address (unbracket u.host) <;> simp [ha]
  | _ => simp

theorem info_v4 (u : Uri) : (getInfo address u).ip4 = true ↔ IsV4 address u := by
  unfold getInfo IsV4 addressOf
  rw [← unbracket_eq]
  cases hk : u.kind with
  | tcp => cases ha : address (unbracket u.host) <;> simp [ha]
  | _ => simp

theorem info_v6 (u : Uri) : (getInfo address u).ip6 = true ↔ IsV6 address u := by
  unfold getInfo IsV6 addressOf
  rw [← unbracket_eq]
  cases hk : u.kind with
  | tcp => cases ha : address (unbracket u.host) <;> simp [ha]
  | _ => simp

theorem info_local (u : Uri) : (getInfo address u).isLocal = true ↔ IsHere address u := by
  unfold getInfo IsHere IsLoopback addressOf
  rw [← unbracket_eq]
  cases hk : u.kind with
  | tcp => cases ha : address (unbracket u.host) <;> simp [ha]
  | _ => simp

theorem v4_tcp {u : Uri} (h : IsV4 address u) : u.kind = .tcp := by
  obtain ⟨a, ha, _⟩ := h
  unfold addressOf at ha
  split at ha
  · assumption
  · cases ha

theorem v6_tcp {u : Uri} (h : IsV6 address u) : u.kind = .tcp := by
  obtain ⟨a, ha, _⟩ := h
  unfold addressOf at ha
  split at ha
  · assumption
  · cases ha

/-! ## The loop -/

def tcpText (host : Str) (port : Nat) : Str := "tcp://".toList ++ host ++ ":".toList ++ Nat.toDigits 10 port

theorem makeTcp_ok {host : Str} {port : Nat} (h1 : host ≠ []) (h2 : '/' ∉ host) (hp : port < 65536) : ∃ u, makeTcp host port = some u ∧ u.encoded = tcpText host port := by
  have g : Uri.Spec.Grammar (host ++ ':' :: print port ++ []) host (some port) [] := (make_grammar hp (.inl ⟨rfl, rfl⟩)).2 ⟨h1, h2, rfl, rfl, rfl⟩
  refine ⟨⟨.tcp, "tcp".toList, host, some port, [], _⟩, (parse_iff (by simp)).2 ⟨host ++ ':' :: print port ++ [], ?_, rfl, g, rfl⟩, rfl⟩
  have := firstSep_tcp (host ++ ':' :: print port ++ [])
  simpa [List.append_assoc] using this

/-- One `acceptNewTcpUri`. -/
theorem when_accept {b : Bool} {host : Str} {port : Nat} (hb : b = true → host ≠ [] ∧ '/' ∉ host) (hp : port < 65536) {l : List Uri} (g : Good l) :
    ∃ l', when b (acceptTcp host port) (some l) = some l' ∧ Good l' ∧ ∀ e, e ∈ enc l' ↔ e ∈ enc l ∨ (b = true ∧ e = tcpText host port) := by
  unfold when
  cases b with
  | false => exact ⟨l, rfl, g, by simp⟩
  | true =>
    obtain ⟨h1, h2⟩ := hb rfl
    obtain ⟨u, hu, he⟩ := makeTcp_ok h1 h2 hp
    refine ⟨insertUri u l, by simp [acceptTcp, hu], g.insert (parse_self hu), fun e => ?_⟩
    rw [mem_insertUri, he]
    simp [or_comm]

theorem parsed_host {s : Str} {u : Uri} (h : parse s = some u) (hk : u.kind = .tcp) : u.host ≠ [] ∧ '/' ∉ u.host := by
  obtain ⟨rest, _, _, ⟨h1, auth, slash, _, h2, _, h4⟩, _⟩ := (parse_iff (by rw [hk]; decide)).1 h
  refine ⟨h1, fun hm => h2 ?_⟩
  rcases h4 with ⟨_, h4, _⟩ | ⟨_, _, h4, _⟩
  · rw [← h4]; exact hm
  · rw [h4]; exact List.mem_append_left _ hm

theorem parsed_port {s : Str} {u : Uri} (h : parse s = some u) : u.portOf < 65536 := by
  by_cases hk : u.kind = .local
  · unfold parse at h
    cases hs : splitScheme s with
    | none => rw [hs] at h; cases h
    | some q =>
      rw [hs] at h
      simp only at h
      split at h
      · injection h with h; rw [← h]; simp [Uri.portOf]
      · rename_i hn
        split at h
        · cases h
        · split at h
          · cases h
          · injection h with h
            rw [← h] at hk
            exact absurd hk hn
  · obtain ⟨rest, _, _, ⟨_, auth, slash, _, _, _, h4⟩, _⟩ := (parse_iff hk).1 h
    unfold Uri.portOf
    rcases h4 with ⟨_, _, h4⟩ | ⟨_, p, _, _, ht, h4⟩
    · rw [h4]; simp only; split <;> decide
    · rw [h4]; exact portText_lt ht

theorem loop_hosts : "127.0.0.1".toList ≠ [] ∧ '/' ∉ "127.0.0.1".toList ∧ "[::1]".toList ≠ [] ∧ '/' ∉ "[::1]".toList := by decide +kernel

theorem acceptOne_some {src dst : Uri} {r d : Str} (hr : parse r = some src) (hd : parse d = some dst) {l : List Uri} (g : Good l) {s : Str} {u : Uri} (hu : parse s = some u) :
    ∃ l', acceptOne address src dst (some l) s = some l' ∧ Good l' ∧ ∀ e, e ∈ enc l' ↔ e ∈ enc l ∨ Told address src dst s e := by
  unfold acceptOne
  rw [hu]
  simp only
  by_cases hc : (getInfo address u).catchall = true
  · rw [if_pos hc]
    have hp := parsed_port hu
    unfold acceptCatchall
    have hs4 : (getInfo address src).ip4 = true → src.host ≠ [] ∧ '/' ∉ src.host := fun h => parsed_host hr (v4_tcp ((info_v4 src).1 h))
    have hs6 : (getInfo address src).ip6 = true → src.host ≠ [] ∧ '/' ∉ src.host := fun h => parsed_host hr (v6_tcp ((info_v6 src).1 h))
    have hd4 : (getInfo address dst).ip4 = true → dst.host ≠ [] ∧ '/' ∉ dst.host := fun h => parsed_host hd (v4_tcp ((info_v4 dst).1 h))
    have hd6 : (getInfo address dst).ip6 = true → dst.host ≠ [] ∧ '/' ∉ dst.host := fun h => parsed_host hd (v6_tcp ((info_v6 dst).1 h))
    obtain ⟨l1, e1, g1, m1⟩ := when_accept (b := (getInfo address src).isLocal && ((getInfo address dst).isLocal && (getInfo address u).ip4)) (host := "127.0.0.1".toList)
      (fun _ => ⟨loop_hosts.1, loop_hosts.2.1⟩) hp g
    obtain ⟨l2, e2, g2, m2⟩ := when_accept (b := (getInfo address src).isLocal && ((getInfo address dst).isLocal && (getInfo address u).ip6)) (host := "[::1]".toList)
      (fun _ => ⟨loop_hosts.2.2.1, loop_hosts.2.2.2⟩) hp g1
    obtain ⟨l3, e3, g3, m3⟩ := when_accept (b := (getInfo address src).isLocal && ((getInfo address u).ip4 && (getInfo address dst).ip4)) (host := dst.host)
      (fun h => hd4 (by simp only [Bool.and_eq_true] at h; exact h.2.2)) hp g2
    obtain ⟨l4, e4, g4, m4⟩ := when_accept (b := (getInfo address src).isLocal && ((getInfo address u).ip6 && (getInfo address dst).ip6)) (host := dst.host)
      (fun h => hd6 (by simp only [Bool.and_eq_true] at h; exact h.2.2)) hp g3
    obtain ⟨l5, e5, g5, m5⟩ := when_accept (b := (getInfo address u).ip4 && (getInfo address src).ip4) (host := src.host)
      (fun h => hs4 (by simp only [Bool.and_eq_true] at h; exact h.2)) hp g4
    obtain ⟨l6, e6, g6, m6⟩ := when_accept (b := (getInfo address u).ip6 && (getInfo address src).ip6) (host := src.host)
      (fun h => hs6 (by simp only [Bool.and_eq_true] at h; exact h.2)) hp g5
    refine ⟨l6, by rw [e1, e2, e3, e4, e5, e6], g6, fun e => ?_⟩
    have hcc := (info_catchall u).1 hc
    simp only [m6, m5, m4, m3, m2, m1, Bool.and_eq_true, info_v4, info_v6, info_local]
    have told : Told address src dst s e ↔ ∃ host, Replaces address src dst u host ∧ e = tcpText host u.portOf := by
      constructor
      · rintro ⟨u', hu', h⟩
        rw [hu] at hu'
        injection hu' with hu'
        subst hu'
        rcases h with ⟨h, _⟩ | ⟨_, h⟩
        · exact absurd hcc h
        · exact h
      · exact fun h => ⟨u, hu, .inr ⟨hcc, h⟩⟩
    rw [told]
    unfold Replaces SameFamily
    constructor
    · rintro ((((((h | h) | h) | h) | h) | h) | h)
      · exact .inl h
      · exact .inr ⟨_, .inl ⟨h.1.1, h.1.2.1, h.1.2.2, rfl⟩, h.2⟩
      · exact .inr ⟨_, .inr (.inl ⟨h.1.1, h.1.2.1, h.1.2.2, rfl⟩), h.2⟩
      · exact .inr ⟨_, .inr (.inr (.inl ⟨h.1.1, .inl h.1.2, rfl⟩)), h.2⟩
      · exact .inr ⟨_, .inr (.inr (.inl ⟨h.1.1, .inr h.1.2, rfl⟩)), h.2⟩
      · exact .inr ⟨_, .inr (.inr (.inr ⟨.inl h.1, rfl⟩)), h.2⟩
      · exact .inr ⟨_, .inr (.inr (.inr ⟨.inr h.1, rfl⟩)), h.2⟩
    · rintro (h | ⟨host, h | h | h | h, rfl⟩)
      · exact .inl (.inl (.inl (.inl (.inl (.inl h)))))
      · obtain ⟨a, b, c, rfl⟩ := h
        exact .inl (.inl (.inl (.inl (.inl (.inr ⟨⟨a, b, c⟩, rfl⟩)))))
      · obtain ⟨a, b, c, rfl⟩ := h
        exact .inl (.inl (.inl (.inl (.inr ⟨⟨a, b, c⟩, rfl⟩))))
      · obtain ⟨a, b | b, rfl⟩ := h
        · exact .inl (.inl (.inl (.inr ⟨⟨a, b⟩, rfl⟩)))
        · exact .inl (.inl (.inr ⟨⟨a, b⟩, rfl⟩))
      · obtain ⟨b | b, rfl⟩ := h
        · exact .inl (.inr ⟨b, rfl⟩)
        · exact .inr ⟨b, rfl⟩
  · rw [if_neg hc]
    have hcc : ¬ IsCatchall address u := fun h => hc ((info_catchall u).2 h)
    refine ⟨insertUri u l, rfl, g.insert (parse_self hu), fun e => ?_⟩
    rw [mem_insertUri, parse_encoded hu]
    constructor
    · rintro (h | h)
      · exact .inr ⟨u, hu, .inl ⟨hcc, h⟩⟩
      · exact .inl h
    · rintro (h | ⟨u', hu', h⟩)
      · exact .inr h
      · rw [hu] at hu'
        injection hu' with hu'
        subst hu'
        rcases h with ⟨_, h⟩ | ⟨h, _⟩
        · exact .inl h
        · exact absurd h hcc

theorem acceptOne_none {src dst : Uri} (s : Str) : acceptOne address src dst none s = none := by
  unfold acceptOne
  split
  · rfl
  · split
    · have w : ∀ b host port, when b (acceptTcp host port) none = none := by
        intro b host port; cases b <;> rfl
      simp [acceptCatchall, w]
    · rfl

theorem loop_none {src dst : Uri} (as : List Str) : as.foldl (acceptOne address src dst) none = none := by
  induction as with
  | nil => rfl
  | cons a as ih => rw [List.foldl_cons, acceptOne_none, ih]

theorem loop_some {src dst : Uri} {r d : Str} (hr : parse r = some src) (hd : parse d = some dst) (as : List Str) (h : ∀ s ∈ as, (parse s).isSome = true) {l : List Uri} (g : Good l) :
    ∃ l', as.foldl (acceptOne address src dst) (some l) = some l' ∧ Good l' ∧ ∀ e, e ∈ enc l' ↔ e ∈ enc l ∨ ∃ s ∈ as, Told address src dst s e := by
  induction as generalizing l with
  | nil => exact ⟨l, rfl, g, by simp⟩
  | cons a as ih =>
    obtain ⟨u, hu⟩ := Option.isSome_iff_exists.1 (h a (by simp))
    obtain ⟨l1, e1, g1, m1⟩ := acceptOne_some (address := address) hr hd g hu
    obtain ⟨l2, e2, g2, m2⟩ := ih (fun s hs => h s (by simp [hs])) g1
    refine ⟨l2, by rw [List.foldl_cons, e1, e2], g2, fun e => ?_⟩
    rw [m2, m1]
    simp [or_assoc]

theorem loop_parses {src dst : Uri} (as : List Str) (s0 : Option (List Uri)) (h : (as.foldl (acceptOne address src dst) s0).isSome = true) : ∀ s ∈ as, (parse s).isSome = true := by
  induction as generalizing s0 with
  | nil => intro s hs; cases hs
  | cons a as ih =>
    rw [List.foldl_cons] at h
    intro s hs
    rcases List.mem_cons.1 hs with rfl | hs
    · cases hp : parse s with
      | some u => rfl
      | none =>
        have : acceptOne address src dst s0 s = none := by unfold acceptOne; rw [hp]
        rw [this, loop_none] at h; cases h
    · exact ih _ h s hs

/-! ## The order -/

theorem insertKey_perm (k : Nat) (s : Str) (l : List (Nat × Str)) : (insertKey k s l).Perm ((k, s) :: l) := by
  induction l with
  | nil => exact List.Perm.refl _
  | cons p ps ih =>
    simp only [insertKey]
    split
    · exact List.Perm.refl _
    · exact (ih.cons p).trans (List.Perm.swap _ _ _)

theorem insertKey_sorted {k : Nat} {s : Str} {l : List (Nat × Str)} (h : l.Pairwise fun a b => a.1 ≤ b.1) : (insertKey k s l).Pairwise fun a b => a.1 ≤ b.1 := by
  induction l with
  | nil => simp [insertKey]
  | cons p ps ih =>
    have h' := List.pairwise_cons.1 h
    simp only [insertKey]
    split
    · rename_i hlt
      rw [List.pairwise_cons]
      refine ⟨fun q hq => ?_, h⟩
      rcases List.mem_cons.1 hq with rfl | hq
      · exact Nat.le_of_lt hlt
      · exact Nat.le_trans (Nat.le_of_lt hlt) (h'.1 q hq)
    · rename_i hge
      rw [List.pairwise_cons]
      refine ⟨fun q hq => ?_, ih h'.2⟩
      rcases List.mem_cons.1 ((insertKey_perm k s ps).mem_iff.1 hq) with rfl | hq
      · exact Nat.le_of_not_lt hge
      · exact h'.1 q hq

theorem order_fold {dst : Uri} (us : List Uri) (m : List (Nat × Str)) (hm : m.Pairwise fun a b => a.1 ≤ b.1) :
    (us.foldl (fun m u => insertKey (penalty address dst u) u.encoded m) m).Pairwise (fun a b => a.1 ≤ b.1) ∧
    (us.foldl (fun m u => insertKey (penalty address dst u) u.encoded m) m).Perm (us.map (fun u => (penalty address dst u, u.encoded)) ++ m) := by
  induction us generalizing m with
  | nil => exact ⟨hm, List.Perm.refl _⟩
  | cons u us ih =>
    obtain ⟨h1, h2⟩ := ih (insertKey (penalty address dst u) u.encoded m) (insertKey_sorted hm)
    refine ⟨h1, h2.trans ?_⟩
    rw [List.map_cons, List.cons_append]
    exact ((insertKey_perm _ _ _).append_left _).trans List.perm_middle

theorem order_sorted (dst : Uri) (us : List Uri) : (order address dst us).Pairwise (fun a b => a.1 ≤ b.1) := (order_fold us [] List.Pairwise.nil).1

theorem order_perm (dst : Uri) (us : List Uri) : (order address dst us).Perm (us.map fun u => (penalty address dst u, u.encoded)) := by
  have := (order_fold (address := address) (dst := dst) us [] List.Pairwise.nil).2
  rw [List.append_nil] at this
  exact this

theorem order_names (dst : Uri) (us : List Uri) : ((order address dst us).map (·.2)).Perm (enc us) := by
  have := (order_perm (address := address) dst us).map (·.2)
  simpa [enc, Function.comp_def] using this

end SilKit.Acceptors
