import Verif.Spec.ConnectPeer
import Verif.Lemmas.Uri
/-!
# Lemmas about connecting to a peer
-/
namespace SilKit.ConnectPeer
open SilKit.Uri Spec

theorem run_snoc (n m : Nat) (h : List In) (x : In) : run n m (h ++ [x]) = onIn (run n m h) x := by simp [run, List.foldl_append]

theorem in_induction {P : List In → Prop} (nil : P []) (snoc : ∀ l x, P l → P (l ++ [x])) (h : List In) : P h := by
  rw [← List.reverse_reverse h]
  induction h.reverse with
  | nil => exact nil
  | cons x l ih => rw [List.reverse_cons]; exact snoc _ x ih

/-- What has been tried when `k` attempts are over and the next URI is `i`. -/
def soFar (size k i : Nat) : List Nat := (List.replicate k (List.range size)).flatten ++ List.range i

theorem soFar_next (size k i : Nat) : soFar size k (i + 1) = soFar size k i ++ [i] := by
  unfold soFar; rw [List.range_succ, List.append_assoc]

theorem soFar_wrap (size k : Nat) : soFar size (k + 1) 0 = soFar size k size := by
  unfold soFar
  rw [List.replicate_succ', List.flatten_append]; simp

theorem soFar_empty (k : Nat) : soFar 0 k 0 = [] := by
  unfold soFar
  induction k with
  | zero => rfl
  | succ k ih =>
    rw [List.replicate_succ', List.flatten_append]
    simp

theorem soFar_plan (size m : Nat) : soFar size (max m 1) 0 = plan size m := by simp [soFar, plan]

/-- Where the connecting is. -/
inductive Phase (r : State × List Out) : Prop
  | work (t : r.1.tasks = [.tryNext]) (c : r.1.connector = false) (e : ends r.2 = [])
  | wait (t : r.1.tasks = []) (c : r.1.connector = true) (e : ends r.2 = []) (l : 0 < r.1.index) (u : ∃ t', r.2 = t' ++ [.tried (r.1.index - 1)])
  | connected (t : r.1.tasks = []) (c : r.1.connector = false) (u : ∃ t' i, r.2 = t' ++ [.tried i, .success] ∧ ends t' = [])
  | failed (t : r.1.tasks = []) (c : r.1.connector = false) (u : ∃ t', r.2 = t' ++ [.failure] ∧ ends t' = []) (p : r.1.remaining = 0 ∨ r.1.size = 0)

structure Inv (n m : Nat) (r : State × List Out) : Prop where
  size : r.1.size = n
  rem : r.1.remaining ≤ max m 1
  index : r.1.index ≤ n
  done : r.1.remaining = 0 → r.1.index = 0
  tries : tries r.2 = soFar n (max m 1 - r.1.remaining) r.1.index
  phase : Phase r

theorem tries_append (a b : List Out) : tries (a ++ b) = tries a ++ tries b := List.filterMap_append
theorem ends_append (a b : List Out) : ends (a ++ b) = ends a ++ ends b := by simp [ends]

theorem inv_start (n m : Nat) : Inv n m (run n m []) :=
  ⟨rfl, by simp [run, start], Nat.zero_le _, fun _ => rfl, by simp [run, start, tries, soFar], .work rfl rfl rfl⟩

theorem inv_step {n m : Nat} {r : State × List Out} (i : Inv n m r) {x : In} (hx : x ≠ .go .failsAtOnce) : Inv n m (onIn r x) := by
  cases x with
  | go q =>
    cases i.phase with
    | wait t c e l u => simpa [onIn, State.step, t] using i
    | connected t c u => simpa [onIn, State.step, t] using i
    | failed t c u p => simpa [onIn, State.step, t] using i
    | work t c e =>
      simp only [onIn, State.step, t]
      unfold tryNext
      by_cases h0 : r.1.remaining = 0
      · rw [if_pos h0]
        refine ⟨i.size, i.rem, i.index, i.done, ?_, .failed rfl rfl ⟨r.2, rfl, e⟩ (.inl h0)⟩
        rw [tries_append, i.tries]; simp [tries, triedOf]
      · rw [if_neg h0]
        by_cases h1 : r.1.size = 0
        · rw [if_pos h1]
          refine ⟨i.size, i.rem, i.index, i.done, ?_, .failed rfl rfl ⟨r.2, rfl, e⟩ (.inr h1)⟩
          rw [tries_append, i.tries]; simp [tries, triedOf]
        · rw [if_neg h1]
          by_cases h2 : r.1.size ≤ r.1.index
          · rw [if_pos h2]
            have e1 : r.1.index = n := by have := i.index; rw [i.size] at h2; omega
            have e2 : max m 1 - (r.1.remaining - 1) = max m 1 - r.1.remaining + 1 := by have := i.rem; omega
            refine ⟨i.size, by have := i.rem; simp only; omega, Nat.zero_le _, fun _ => rfl, ?_, .work rfl c (by simpa using e)⟩
            simp only [List.append_nil]
            rw [i.tries, e1, e2, soFar_wrap]
          · rw [if_neg h2]
            have hi : r.1.index < n := by rw [i.size] at h2; omega
            have ht : tries (r.2 ++ [.tried r.1.index]) = soFar n (max m 1 - r.1.remaining) (r.1.index + 1) := by
              rw [tries_append, i.tries, soFar_next]; rfl
            have he : ends (r.2 ++ [.tried r.1.index]) = [] := by rw [ends_append, e]; rfl
            cases q with
            | none => exact ⟨i.size, i.rem, hi, fun h => absurd h h0, ht, .work rfl c he⟩
            | pending => exact ⟨i.size, i.rem, hi, fun h => absurd h h0, ht, .wait rfl rfl he (Nat.succ_pos _) ⟨r.2, rfl⟩⟩
            | failsAtOnce => exact absurd rfl hx
  | connected =>
    cases i.phase with
    | work t c e => simpa [onIn, State.step, t] using i
    | connected t c u => simpa [onIn, State.step, c] using i
    | failed t c u p => simpa [onIn, State.step, c] using i
    | wait t c e l u =>
      simp only [onIn, State.step, t, c, and_self, if_true]
      refine ⟨i.size, i.rem, i.index, i.done, ?_, .connected rfl rfl ?_⟩
      · rw [tries_append, i.tries]; simp [tries, triedOf]
      · obtain ⟨t', ht⟩ := u
        refine ⟨t', r.1.index - 1, by simp [ht], ?_⟩
        rw [ht, ends_append] at e
        exact (List.append_eq_nil_iff.1 e).1
  | failed =>
    cases i.phase with
    | work t c e => simpa [onIn, State.step, t] using i
    | connected t c u => simpa [onIn, State.step, c] using i
    | failed t c u p => simpa [onIn, State.step, c] using i
    | wait t c e l u =>
      simp only [onIn, State.step, t, c, and_self, if_true]
      exact ⟨i.size, i.rem, i.index, i.done, by simpa using i.tries, .work rfl rfl (by simpa using e)⟩

theorem run_inv (n m : Nat) (h : List In) : Async h → Inv n m (run n m h) := by
  refine in_induction (P := fun h => Async h → Inv n m (run n m h)) (fun _ => inv_start n m) (fun l x ih ha => ?_) h
  unfold Async at ha ih
  rw [run_snoc]
  refine inv_step (ih fun hm => ha (List.mem_append_left _ hm)) fun hx => ha ?_
  rw [hx]; simp

theorem plan_split (n m k i : Nat) (hk : k < max m 1) (hi : i ≤ n) : soFar n k i <+: plan n m := by
  have e : max m 1 = k + (1 + (max m 1 - k - 1)) := by omega
  unfold soFar plan
  conv => rhs; rw [e, ← List.replicate_append_replicate, List.flatten_append, ← List.replicate_append_replicate, List.flatten_append]
  obtain ⟨j, hj⟩ : ∃ j, n = i + j := ⟨n - i, by omega⟩
  have : List.range n = List.range i ++ (List.range j).map (i + ·) := by rw [hj, List.range_add]
  refine ⟨(List.range j).map (i + ·) ++ (List.replicate (max m 1 - k - 1) (List.range n)).flatten, ?_⟩
  have e1 : (List.replicate 1 (List.range n)).flatten = List.range n := by simp
  rw [e1]
  conv => rhs; rhs; lhs; rw [this]
  simp [List.append_assoc]

theorem inv_prefix {n m : Nat} {r : State × List Out} (i : Inv n m r) : tries r.2 <+: plan n m := by
  rw [i.tries]
  rcases Nat.eq_zero_or_pos r.1.remaining with h | h
  · rw [h, i.done h, Nat.sub_zero, soFar_plan]; exact List.prefix_refl _
  · exact plan_split _ _ _ _ (by have := i.rem; omega) i.index

/-- The work that is left. -/
def measure (s : State) : Nat := s.remaining * (2 * s.size + 2) + 2 * (s.size - s.index) + s.tasks.length + (if s.connector then 2 else 0)

theorem measure_step {n m : Nat} {r : State × List Out} (i : Inv n m r) {x : In} (hx : x ≠ .go .failsAtOnce) (hp : Possible r.1 x) :
    measure (onIn r x).1 < measure r.1 := by
  cases x with
  | go q =>
    cases i.phase with
    | wait t c e l u => exact absurd t hp
    | connected t c u => exact absurd t hp
    | failed t c u p => exact absurd t hp
    | work t c e =>
      simp only [onIn, State.step, t]
      unfold tryNext measure
      by_cases h0 : r.1.remaining = 0
      · rw [if_pos h0]; simp [t, c]
      · rw [if_neg h0]
        by_cases h1 : r.1.size = 0
        · rw [if_pos h1]; simp [t, c]
        · rw [if_neg h1]
          by_cases h2 : r.1.size ≤ r.1.index
          · rw [if_pos h2]
            obtain ⟨k, hk⟩ : ∃ k, r.1.remaining = k + 1 := ⟨r.1.remaining - 1, by omega⟩
            simp only [t, c, hk, Nat.add_sub_cancel, List.length_singleton, Nat.add_mul, Nat.one_mul]
            simp
            omega
          · rw [if_neg h2]
            cases q with
            | none => simp only [tryUri, t, c]; simp; omega
            | pending => simp only [tryUri, t, c]; simp; omega
            | failsAtOnce => exact absurd rfl hx
  | connected =>
    have hp' : r.1.tasks = [] ∧ r.1.connector = true := hp
    simp only [onIn, State.step]
    rw [if_pos hp']
    simp [measure, hp'.1, hp'.2]
  | failed =>
    have hp' : r.1.tasks = [] ∧ r.1.connector = true := hp
    simp only [onIn, State.step]
    rw [if_pos hp']
    simp [measure, hp'.1, hp'.2]

theorem busy_bound (n m : Nat) (h : List In) : Async h → Busy n m h → h.length + measure (run n m h).1 ≤ max m 1 * (2 * n + 2) + 2 * n + 1 := by
  refine in_induction (P := fun h => Async h → Busy n m h → h.length + measure (run n m h).1 ≤ max m 1 * (2 * n + 2) + 2 * n + 1)
    (fun _ _ => by simp [run, start, measure]) (fun l x ih ha hb => ?_) h
  have ha' : Async l := fun hm => ha (List.mem_append_left _ hm)
  have hb' : Busy n m l := fun a y b e => hb a y (b ++ [x]) (by rw [e]; simp)
  have hx : x ≠ .go .failsAtOnce := fun hx => ha (by rw [hx]; simp)
  have := measure_step (run_inv n m l ha') hx (hb l x [] rfl)
  have := ih ha' hb'
  rw [run_snoc, List.length_append]
  simp only [List.length_singleton]
  omega

/-! ## The order of the URIs -/

theorem sorted_filters {α : Type} (f : α → Nat) : ∀ (ps : List Nat), ps.Pairwise (· < ·) → ∀ (l : List α), l.Pairwise (fun a b => f a ≤ f b) → (∀ x ∈ l, f x ∈ ps) →
    l = ps.flatMap fun p => l.filter fun x => f x == p := by
  intro ps
  induction ps with
  | nil =>
    intro _ l _ h
    cases l with
    | nil => rfl
    | cons x xs => exact absurd (h x (by simp)) (by simp)
  | cons p ps ih =>
    intro hps l hl hm
    rw [List.pairwise_cons] at hps
    have hge : ∀ x ∈ l, p ≤ f x := fun x hx => by
      rcases List.mem_cons.1 (hm x hx) with h | h
      · omega
      · exact Nat.le_of_lt (hps.1 _ h)
    -- split at the first element that does not have the lowest value
    have cut : ∀ l : List α, l.Pairwise (fun a b => f a ≤ f b) → (∀ x ∈ l, p ≤ f x) →
        l = (l.filter fun x => f x == p) ++ (l.filter fun x => !(f x == p)) := by
      intro l
      induction l with
      | nil => intro _ _; rfl
      | cons x xs ihx =>
        intro hs hg
        rw [List.pairwise_cons] at hs
        by_cases hx : f x = p
        · rw [List.filter_cons_of_pos (by simp [hx]), List.filter_cons_of_neg (by simp [hx]), List.cons_append, ← ihx hs.2 fun y hy => hg y (by simp [hy])]
        · have hlt : p < f x := by have := hg x (by simp); omega
          have hnone : (x :: xs).filter (fun x => f x == p) = [] := by
            rw [List.filter_eq_nil_iff]
            intro y hy
            rcases List.mem_cons.1 hy with rfl | hy
            · simp [hx]
            · have := hs.1 y hy
              simp; omega
          have hall : (x :: xs).filter (fun x => !(f x == p)) = x :: xs := by
            rw [List.filter_eq_self]
            intro y hy
            rcases List.mem_cons.1 hy with rfl | hy
            · simp [hx]
            · have := hs.1 y hy
              simp; omega
          rw [hnone, hall]; rfl
    rw [List.flatMap_cons]
    conv => lhs; rw [cut l hl hge]
    congr 1
    have hl' : (l.filter fun x => !(f x == p)).Pairwise (fun a b => f a ≤ f b) := hl.filter _
    have := ih hps.2 (l.filter fun x => !(f x == p)) hl' (fun x hx => by
      rw [List.mem_filter] at hx
      rcases List.mem_cons.1 (hm x hx.1) with h | h
      · simp [h] at hx
      · exact h)
    rw [this]
    clear this ih
    suffices hh : ∀ qs : List Nat, (∀ q ∈ qs, p < q) → (qs.flatMap fun q => (l.filter fun x => !(f x == p)).filter fun x => f x == q) = qs.flatMap fun q => l.filter fun x => f x == q from
      hh ps hps.1
    intro qs hq
    induction qs with
    | nil => rfl
    | cons q qs ihq =>
      rw [List.flatMap_cons, List.flatMap_cons, ihq fun y hy => hq y (by simp [hy])]
      congr 1
      rw [List.filter_filter]
      apply List.filter_congr
      intro x _
      have := hq q (by simp)
      by_cases hx : f x = q
      · simp [hx]; omega
      · simp [hx]

theorem filter_sort {α : Type} (f : α → Nat) (l : List α) (p : Nat) :
    (l.mergeSort fun a b => decide (f a ≤ f b)).filter (fun x => f x == p) = l.filter fun x => f x == p := by
  have htr : ∀ a b c : α, decide (f a ≤ f b) = true → decide (f b ≤ f c) = true → decide (f a ≤ f c) = true := by
    intro a b c h1 h2; simp at *; omega
  have htot : ∀ a b : α, (decide (f a ≤ f b) || decide (f b ≤ f a)) = true := by
    intro a b; simp; omega
  have hsub : List.Sublist (l.filter fun x => f x == p) (l.mergeSort fun a b => decide (f a ≤ f b)) := by
    refine List.sublist_mergeSort htr htot ?_ List.filter_sublist
    apply List.pairwise_of_forall_mem_list
    intro a ha b hb
    simp at ha hb
    simp; omega
  have h2 := hsub.filter (fun x => f x == p)
  rw [List.filter_filter] at h2
  simp only [Bool.and_self] at h2
  have hlen := ((List.mergeSort_perm l fun a b => decide (f a ≤ f b)).filter fun x => f x == p).length_eq
  exact (h2.eq_of_length hlen.symm).symm

theorem penalty_mem (u : Uri) : penalty u ∈ [100, 200, 300, 400, 500] := by
  unfold penalty
  split
  · simp
  · split
    · simp
    · split <;> simp
  · simp

theorem update_eq (resolve : Str → Option (List Str)) (as : List Str) : updateUris resolve as =
    [100, 200, 300, 400, 500].flatMap fun p => (as.flatMap (expand resolve)).filter fun u => penalty u == p := by
  have h := sorted_filters penalty [100, 200, 300, 400, 500] (by decide) (updateUris resolve as) (by
    have := List.pairwise_mergeSort (le := fun a b => decide (penalty a ≤ penalty b)) (by intro a b c h1 h2; simp at *; omega) (by intro a b; simp; omega) (as.flatMap (expand resolve))
    exact this.imp (by intro a b h; simpa using h)) (fun x _ => penalty_mem x)
  rw [h]
  unfold updateUris
  simp only [filter_sort]

theorem makeTcp_some {a : Str} {p : Nat} (hp : p < 65536) {u : Uri} (h : makeTcp a p = some u) : a ≠ [] ∧ '/' ∉ a ∧ u.kind = .tcp ∧ u.host = a ∧ u.portOf = p := by
  have hsp : splitScheme ("tcp://".toList ++ a ++ ":".toList ++ print p) = some ("tcp".toList, a ++ ':' :: print p ++ []) := by
    have := split_iff.2 (firstSep_tcp (a ++ ':' :: print p ++ []))
    simpa [List.append_assoc] using this
  unfold makeTcp at h
  have hk : u.kind = .tcp := by
    unfold parse at h
    rw [hsp] at h
    simp only at h
    rw [if_neg (by decide)] at h
    split at h
    · cases h
    · split at h
      · cases h
      · injection h with h
        rw [← h]; rfl
  obtain ⟨rest, h1, _, h3, _⟩ := (parse_iff (by rw [hk]; decide)).1 h
  have := split_iff.2 h1
  rw [hsp] at this
  injection this with this
  injection this with _ this
  rw [← this] at h3
  obtain ⟨g1, g2, g3, g4, _⟩ := (make_grammar hp (.inl ⟨rfl, rfl⟩)).1 h3
  exact ⟨g1, g2, hk, g3, by unfold Uri.portOf; rw [g4]⟩

end SilKit.ConnectPeer
