import Verif.Spec.Rpc
/-!
# Lemmas about the client of remote procedure calls
-/
namespace SilKit.Rpc
open Spec

/-! ## Active calls -/

theorem lookup_nil (u : Uuid) : lookup [] u = none := rfl

theorem lookup_cons (e : Uuid × Info) (l : List (Uuid × Info)) (u : Uuid) : lookup (e :: l) u = if e.1 = u then some e.2 else lookup l u := by
  unfold lookup
  by_cases h : e.1 = u
  · simp [h]
  · simp [h]

theorem lookup_emplace (l : List (Uuid × Info)) (u v : Uuid) (i : Info) :
    lookup (emplace l u i) v = if v = u then some ((lookup l u).getD i) else lookup l v := by
  unfold emplace
  by_cases hv : v = u
  · rw [if_pos hv, hv]
    cases hl : lookup l u with
    | none => simp [lookup_cons]
    | some j => simp [hl]
  · rw [if_neg hv]
    split
    · rfl
    · rw [lookup_cons, if_neg (fun h => hv h.symm)]

theorem lookup_erase (l : List (Uuid × Info)) (u v : Uuid) : lookup (erase l u) v = if v = u then none else lookup l v := by
  induction l with
  | nil => simp [erase, lookup_nil]
  | cons e l ih =>
    unfold erase at ih ⊢
    by_cases he : e.1 = u
    · rw [List.filter_cons_of_neg (by simp [he]), ih, lookup_cons]
      by_cases hv : v = u
      · rw [if_pos hv, if_pos hv]
      · rw [if_neg hv, if_neg hv, if_neg (fun h => hv (h.symm.trans he))]
    · rw [List.filter_cons_of_pos (by simp [he]), lookup_cons, lookup_cons, ih]
      by_cases hv : v = u
      · rw [if_pos hv, if_pos hv, if_neg (fun h => he (h.trans hv))]
      · rw [if_neg hv, if_neg hv]

theorem lookup_decr (l : List (Uuid × Info)) (u v : Uuid) :
    lookup (decr l u) v = if v = u then (lookup l u).map (fun i => { i with left := i.left - 1 }) else lookup l v := by
  induction l with
  | nil => simp [decr, lookup_nil]
  | cons e l ih =>
    unfold decr at ih ⊢
    rw [List.map_cons, lookup_cons, ih, lookup_cons, lookup_cons]
    unfold decEntry
    by_cases he : e.1 = u <;> by_cases hv : v = u
    · simp [he, hv]
    · have hv' : ¬ u = v := fun h => hv h.symm
      simp [he, hv, hv']
    · simp [he, hv]
    · simp [he, hv]

/-! ## Histories -/

theorem solo_snoc (h : List In) (x : In) : solo (h ++ [x]) = onInput (solo h) x := by simp [solo, List.foldl_append]

theorem step_ub {c : Client} (h : c.ub = true) (x : In) : c.step x = (c, []) := by simp [Client.step, h]

theorem ub_prefix {r : R} {x : In} (h : (onInput r x).1.ub = false) : r.1.ub = false := by
  cases hb : r.1.ub with
  | false => rfl
  | true => simp [onInput, step_ub hb, hb] at h

theorem foldl_ub_prefix {r : R} {b : List In} (h : (b.foldl onInput r).1.ub = false) : r.1.ub = false := by
  induction b generalizing r with
  | nil => exact h
  | cons x b ih => exact ub_prefix (ih h)

/-! ## The fold in `tick` -/

theorem expire_ub {now : Int} {r : R} (h : r.1.ub = true) (u : Uuid) : expire now r u = r := by simp [expire, h]

theorem expire_ub_prefix {now : Int} {r : R} {u : Uuid} (h : (expire now r u).1.ub = false) : r.1.ub = false := by
  cases hb : r.1.ub with
  | false => rfl
  | true => rw [expire_ub hb, hb] at h; cases h

theorem fold_expire_ub_prefix {now : Int} {l : List Uuid} {r : R} (h : (l.foldl (expire now) r).1.ub = false) : r.1.ub = false := by
  induction l generalizing r with
  | nil => exact h
  | cons x b ih => exact expire_ub_prefix (ih h)

/-- An entry that expires without trouble. -/
theorem expire_ok {now : Int} {r : R} {u : Uuid} (h : (expire now r u).1.ub = false) :
    ∃ i, lookup r.1.active u = some i ∧ r.1.handler = true ∧
      expire now r u = ({ r.1 with active := erase r.1.active u }, r.2 ++ [.result ⟨now, i.ctx, .timeout, []⟩]) := by
  have hp := expire_ub_prefix h
  unfold expire at h ⊢
  rw [if_neg (by simp [hp])] at h ⊢
  cases hl : lookup r.1.active u with
  | none => rw [hl] at h; cases h
  | some i =>
    rw [hl] at h
    by_cases hh : r.1.handler = true
    · exact ⟨i, rfl, hh, by simp [hh]⟩
    · simp [hh] at h

/-- What stays as it is. -/
theorem fold_expire_same {now : Int} {l : List Uuid} {r : R} (h : (l.foldl (expire now) r).1.ub = false) :
    (l.foldl (expire now) r).1 = { r.1 with active := (l.foldl (expire now) r).1.active } ∧
    (∀ v, v ∉ l → lookup (l.foldl (expire now) r).1.active v = lookup r.1.active v) ∧
    (∀ v ∈ l, lookup (l.foldl (expire now) r).1.active v = none) := by
  induction l generalizing r with
  | nil => exact ⟨rfl, fun _ _ => rfl, fun v hv => by cases hv⟩
  | cons x l ih =>
    have hx : (expire now r x).1.ub = false := fold_expire_ub_prefix (l := l) h
    obtain ⟨i, hl, hh, e⟩ := expire_ok hx
    obtain ⟨i1, i2, i3⟩ := ih (r := expire now r x) h
    rw [List.foldl_cons]
    refine ⟨?_, ?_, ?_⟩
    · rw [i1, e]
    · intro v hv
      have hx' : ¬ v = x := fun c => hv (by rw [c]; exact List.mem_cons_self)
      rw [i2 v (fun c => hv (List.mem_cons_of_mem _ c)), e, lookup_erase, if_neg hx']
    · intro v hv
      by_cases hm : v ∈ l
      · exact i3 v hm
      · rcases List.mem_cons.1 hv with c | c
        · rw [i2 v hm, e, lookup_erase, if_pos c]
        · exact absurd c hm

/-! ## Results -/

theorem results_append (ctx : Ctx) (a b : List Out) : results ctx (a ++ b) = results ctx a ++ results ctx b := by
  simp [results, List.filterMap_append]

theorem results_one_ne {ctx : Ctx} {r : Result} (h : r.ctx ≠ ctx) : results ctx [.result r] = [] := by
  simp [results, resultOf, h]

theorem results_one {ctx : Ctx} {r : Result} (h : r.ctx = ctx) : results ctx [.result r] = [r] := by
  simp [results, resultOf, h]

/-- Only the call `u` uses the context. -/
def Alone (u : Uuid) (ctx : Ctx) (c : Client) : Prop := ∀ v i, lookup c.active v = some i → i.ctx = ctx → v = u

theorem fold_expire_results_ne {now : Int} {l : List Uuid} {r : R} {u : Uuid} {ctx : Ctx} (h : (l.foldl (expire now) r).1.ub = false)
    (ha : Alone u ctx r.1) (hu : u ∉ l) : results ctx (l.foldl (expire now) r).2 = results ctx r.2 := by
  induction l generalizing r with
  | nil => rfl
  | cons x l ih =>
    have hx : (expire now r x).1.ub = false := fold_expire_ub_prefix (l := l) h
    obtain ⟨i, hl, hh, e⟩ := expire_ok hx
    rw [List.foldl_cons, ih h ?_ (fun c => hu (List.mem_cons_of_mem _ c)), e, results_append, results_one_ne, List.append_nil]
    · intro c
      exact hu ((ha x i hl c) ▸ List.mem_cons_self)
    · intro v j hj
      rw [e, lookup_erase] at hj
      split at hj
      · cases hj
      · exact ha v j hj

theorem fold_expire_results_mem {now : Int} {l : List Uuid} {r : R} {u : Uuid} {ctx : Ctx} (h : (l.foldl (expire now) r).1.ub = false)
    (ha : Alone u ctx r.1) (hu : u ∈ l) (hn : l.Nodup) {i : Info} (hi : lookup r.1.active u = some i) (hc : i.ctx = ctx) :
    results ctx (l.foldl (expire now) r).2 = results ctx r.2 ++ [⟨now, ctx, .timeout, []⟩] := by
  induction l generalizing r with
  | nil => cases hu
  | cons x l ih =>
    have hx : (expire now r x).1.ub = false := fold_expire_ub_prefix (l := l) h
    obtain ⟨j, hl, hh, e⟩ := expire_ok hx
    have ha' : Alone u ctx (expire now r x).1 := by
      intro v j hj
      rw [e, lookup_erase] at hj
      split at hj
      · cases hj
      · exact ha v j hj
    rw [List.foldl_cons]
    rw [List.nodup_cons] at hn
    by_cases hxu : x = u
    · subst hxu
      rw [hi] at hl; cases hl
      rw [fold_expire_results_ne (l := l) (r := expire now r x) h ha' hn.1, e, results_append, results_one hc, hc]
    · have hm : u ∈ l := by
        rcases List.mem_cons.1 hu with c | c
        · exact absurd c.symm hxu
        · exact c
      rw [ih h ha' hm hn.2 (by rw [e, lookup_erase, if_neg (fun c => hxu c.symm)]; exact hi), e, results_append, results_one_ne, List.append_nil]
      intro c
      exact hxu (ha x j hl c)

/-- A call that is not active any more. -/
theorem fold_expire_dead {now : Int} {l : List Uuid} {r : R} {u : Uuid} (hu : u ∈ l) (hi : lookup r.1.active u = none) :
    (l.foldl (expire now) r).1.ub = true := by
  cases hb : (l.foldl (expire now) r).1.ub with
  | true => rfl
  | false =>
    exfalso
    induction l generalizing r with
    | nil => cases hu
    | cons x l ih =>
      have hx : (expire now r x).1.ub = false := fold_expire_ub_prefix (l := l) hb
      obtain ⟨j, hl, hh, e⟩ := expire_ok hx
      by_cases hxu : x = u
      · rw [hxu, hi] at hl; cases hl
      · rcases List.mem_cons.1 hu with c | c
        · exact hxu c.symm
        · exact ih c (by rw [e, lookup_erase, if_neg (fun c => hxu c.symm)]; exact hi) hb

/-! ## What holds of a client -/

structure G (h : List In) (r : R) : Prop where
  known : (r.1.known : Int) = knownCount h % 2 ^ 32
  act : ∀ u i, lookup r.1.active u = some i → ∃ now data t, In.call now u i.ctx data t ∈ h
  tmo : ∀ e ∈ r.1.timeouts, e.2 ∈ uuids h
  nodup : (uuids h).Nodup → (r.1.timeouts.map (·.2)).Nodup
  hnd : In.setHandler false ∉ h → r.1.handler = true

theorem uuids_snoc (h : List In) (x : In) : uuids (h ++ [x]) = uuids h ++ (uuidOf x).toList := by
  simp only [uuids, List.filterMap_append]
  cases hx : uuidOf x <;> simp [hx]

theorem knownCount_snoc_ne (h : List In) (x : In) (h1 : x ≠ .found) (h2 : x ≠ .lost) : knownCount (h ++ [x]) = knownCount h := by
  simp [knownCount, List.count_append, List.count_singleton, h1, h2]

theorem knownCount_snoc_found (h : List In) : knownCount (h ++ [.found]) = knownCount h + 1 := by
  simp [knownCount, List.count_append]; omega

theorem knownCount_snoc_lost (h : List In) : knownCount (h ++ [.lost]) = knownCount h - 1 := by
  simp [knownCount, List.count_append]; omega

theorem nodup_of_append {l m : List Nat} (h : (l ++ m).Nodup) : l.Nodup := (List.nodup_append.1 h).1

/-- A step that does not touch the tables. -/
theorem G.keep {h : List In} {r : R} (g : G h r) (x : In) (c : Client) (o : List Out) (h1 : x ≠ .found) (h2 : x ≠ .lost)
    (hk : c.known = r.1.known) (ha : ∀ u i, lookup c.active u = some i → ∃ j, lookup r.1.active u = some j ∧ j.ctx = i.ctx)
    (ht : c.timeouts = r.1.timeouts) (hh : c.handler = r.1.handler) : G (h ++ [x]) (c, r.2 ++ o) where
  known := by rw [knownCount_snoc_ne h x h1 h2]; simp only [hk]; exact g.known
  act u i hl := by
    obtain ⟨j, hj, e⟩ := ha u i hl
    obtain ⟨now, d, t, hm⟩ := g.act u j hj
    exact ⟨now, d, t, List.mem_append_left _ (e ▸ hm)⟩
  tmo e he := by
    rw [uuids_snoc]
    simp only [ht] at he
    exact List.mem_append_left _ (g.tmo e he)
  nodup hn := by
    rw [uuids_snoc] at hn
    simp only [ht]
    exact g.nodup (nodup_of_append hn)
  hnd hs := by
    simp only [hh]
    exact g.hnd fun c => hs (List.mem_append_left _ c)

theorem hear_cases (c : Client) (m : Response) :
    (lookup c.active m.uuid = none ∧ c.hear m = (c, [])) ∨
    ∃ i, lookup c.active m.uuid = some i ∧
      c.hear m = ({ c with cur := some m.uuid }, if c.handler then [.result ⟨m.now, i.ctx, toCallStatus m.status, m.data⟩] else []) := by
  unfold Client.hear
  cases h : lookup c.active m.uuid with
  | none => exact .inl ⟨rfl, rfl⟩
  | some i => exact .inr ⟨i, rfl, rfl⟩

theorem done_cases (c : Client) :
    (c.cur = none ∧ c.done = (c, [])) ∨ ∃ u, c.cur = some u ∧
      ((lookup c.active u = none ∧ c.done = ({ c with ub := true }, [.ub])) ∨
       ∃ i, lookup c.active u = some i ∧
        ((i.left - 1 ≤ 0 ∧ c.done = ({ c with cur := none, active := erase c.active u }, [])) ∨
         (0 < i.left - 1 ∧ c.done = ({ c with cur := none, active := decr c.active u }, [])))) := by
  unfold Client.done
  cases h : c.cur with
  | none => exact .inl ⟨rfl, rfl⟩
  | some u =>
    refine .inr ⟨u, rfl, ?_⟩
    simp only
    cases hl : lookup c.active u with
    | none => exact .inl ⟨rfl, by simp only [h]⟩
    | some i =>
      refine .inr ⟨i, rfl, ?_⟩
      by_cases hi : i.left - 1 ≤ 0
      · exact .inl ⟨hi, by simp [hi]⟩
      · exact .inr ⟨by omega, by simp [hi]⟩

theorem call_cases (c : Client) (now : Int) (u : Uuid) (ctx : Ctx) (data : Data) (t : Option Int) :
    (c.known = 0 ∧ c.call now u ctx data t = (c, if c.handler then [.result ⟨now, ctx, .serverNotReachable, []⟩] else [])) ∨
    (c.known ≠ 0 ∧ c.call now u ctx data t = ({ c with active := emplace c.active u ⟨toInt32 c.known, ctx⟩
                                                       timeouts := c.timeouts ++ (t.map fun t => (t, u)).toList }, [.sent ⟨now, u, data⟩])) := by
  unfold Client.call
  by_cases h : c.known = 0
  · exact .inl ⟨h, by simp [h]⟩
  · refine .inr ⟨h, ?_⟩
    rw [if_neg h]
    cases t <;> simp

/-- The uuids that expire. -/
def due (l : List (Int × Uuid)) (d : Nat) : List Uuid := ((l.map (shorten d)).filter fun e => decide (e.1 ≤ 0)).map (·.2)

/-- The entries that remain. -/
def rest (l : List (Int × Uuid)) (d : Nat) : List (Int × Uuid) := (l.map (shorten d)).filter fun e => !decide (e.1 ≤ 0)

theorem tick_eq (c : Client) (now : Int) (d : Nat) :
    c.tick now d = (due c.timeouts d).foldl (expire now) ({ c with timeouts := rest c.timeouts d }, []) := rfl

theorem expire_pre (now : Int) (c : Client) (pre o : List Out) (u : Uuid) :
    expire now (c, pre ++ o) u = ((expire now (c, o) u).1, pre ++ (expire now (c, o) u).2) := by
  unfold expire
  by_cases hb : c.ub = true
  · simp [hb]
  · simp only [hb, Bool.false_eq_true, if_false]
    cases hl : lookup c.active u with
    | none => simp [List.append_assoc]
    | some i => by_cases hh : c.handler = true <;> simp [hh, List.append_assoc]

theorem fold_expire_pre (now : Int) (l : List Uuid) (c : Client) (pre o : List Out) :
    l.foldl (expire now) (c, pre ++ o) = ((l.foldl (expire now) (c, o)).1, pre ++ (l.foldl (expire now) (c, o)).2) := by
  induction l generalizing c o with
  | nil => rfl
  | cons x l ih =>
    rw [List.foldl_cons, List.foldl_cons, expire_pre, ih]

theorem onInput_tick {r : R} (hb : r.1.ub = false) (now : Int) (d : Nat) :
    onInput r (.tick now d) = (due r.1.timeouts d).foldl (expire now) ({ r.1 with timeouts := rest r.1.timeouts d }, r.2) := by
  have := fold_expire_pre now (due r.1.timeouts d) { r.1 with timeouts := rest r.1.timeouts d } r.2 []
  rw [List.append_nil] at this
  rw [this]
  simp only [onInput, Client.step, hb, Bool.false_eq_true, if_false, tick_eq]

theorem shorten_uuids (l : List (Int × Uuid)) (d : Nat) : (l.map (shorten d)).map (·.2) = l.map (·.2) := by
  rw [List.map_map]; rfl

theorem rest_uuids (l : List (Int × Uuid)) (d : Nat) : ((rest l d).map (·.2)).Sublist (l.map (·.2)) := by
  have := (List.filter_sublist (l := l.map (shorten d)) (p := fun e => !decide (e.1 ≤ 0))).map (·.2)
  rw [shorten_uuids] at this
  exact this

theorem due_uuids (l : List (Int × Uuid)) (d : Nat) : (due l d).Sublist (l.map (·.2)) := by
  have := (List.filter_sublist (l := l.map (shorten d)) (p := fun e => decide (e.1 ≤ 0))).map (·.2)
  rw [shorten_uuids] at this
  exact this

theorem G_nil : G [] (solo []) where
  known := rfl
  act u i h := by cases h
  tmo e h := by cases h
  nodup _ := List.nodup_nil
  hnd _ := rfl

theorem onInput_eq {r : R} (_ : r.1.ub = false) {x : In} {c : Client} {o : List Out}
    (e : r.1.step x = (c, o)) : onInput r x = (c, r.2 ++ o) := by simp [onInput, e]

theorem known_found {h : List In} {k : Nat} (g : (k : Int) = knownCount h % 2 ^ 32) :
    (((k + 1) % 2 ^ 32 : Nat) : Int) = knownCount (h ++ [.found]) % 2 ^ 32 := by
  rw [knownCount_snoc_found]; omega

theorem known_lost {h : List In} {k : Nat} (g : (k : Int) = knownCount h % 2 ^ 32) :
    (((k + (2 ^ 32 - 1)) % 2 ^ 32 : Nat) : Int) = knownCount (h ++ [.lost]) % 2 ^ 32 := by
  rw [knownCount_snoc_lost]; omega

theorem G.count {h : List In} {r : R} (g : G h r) (x : In) (k : Nat) (o : List Out)
    (hk : (k : Int) = knownCount (h ++ [x]) % 2 ^ 32) : G (h ++ [x]) ({ r.1 with known := k }, r.2 ++ o) where
  known := hk
  act u i hl := by
    obtain ⟨a, b, c, hm⟩ := g.act u i hl
    exact ⟨a, b, c, List.mem_append_left _ hm⟩
  tmo e he := by rw [uuids_snoc]; exact List.mem_append_left _ (g.tmo e he)
  nodup hn := by rw [uuids_snoc] at hn; exact g.nodup (nodup_of_append hn)
  hnd hs := g.hnd fun c => hs (List.mem_append_left _ c)

theorem G_step {h : List In} {r : R} (g : G h r) (x : In) (hb : (onInput r x).1.ub = false) : G (h ++ [x]) (onInput r x) := by
  have hp := ub_prefix hb
  cases x with
  | found =>
    have e : onInput r .found = ({ r.1 with known := (r.1.known + 1) % 2 ^ 32 }, r.2 ++ []) := by simp only [onInput, Client.step, hp, Bool.false_eq_true, if_false]
    rw [e]
    exact g.count _ _ _ (known_found g.known)
  | lost =>
    have e : onInput r .lost = ({ r.1 with known := (r.1.known + (2 ^ 32 - 1)) % 2 ^ 32 }, r.2 ++ []) := by simp only [onInput, Client.step, hp, Bool.false_eq_true, if_false]
    rw [e]
    exact g.count _ _ _ (known_lost g.known)
  | setHandler b =>
    have e : onInput r (.setHandler b) = ({ r.1 with handler := b }, r.2 ++ []) := by simp [onInput, Client.step, hp]
    rw [e]
    exact { known := by rw [knownCount_snoc_ne h _ (by simp) (by simp)]; exact g.known
            act := fun u i hl => by
              obtain ⟨a, b, c, hm⟩ := g.act u i hl
              exact ⟨a, b, c, List.mem_append_left _ hm⟩
            tmo := fun e he => by rw [uuids_snoc]; exact List.mem_append_left _ (g.tmo e he)
            nodup := fun hn => by rw [uuids_snoc] at hn; exact g.nodup (nodup_of_append hn)
            hnd := fun hs => by
              cases b with
              | true => rfl
              | false => exact absurd (List.mem_append_right _ (List.mem_singleton.2 rfl)) hs }
  | call now u ctx data t =>
    have e : r.1.step (.call now u ctx data t) = r.1.call now u ctx data t := by simp [Client.step, hp]
    rcases call_cases r.1 now u ctx data t with ⟨_, ec⟩ | ⟨_, ec⟩
    · rw [onInput_eq hp (e.trans ec)]
      exact g.keep _ _ _ (by simp) (by simp) rfl (fun u i h => ⟨i, h, rfl⟩) rfl rfl
    · rw [onInput_eq hp (e.trans ec)]
      exact { known := by rw [knownCount_snoc_ne h _ (by simp) (by simp)]; exact g.known
              act := fun v i hl => by
                simp only [lookup_emplace] at hl
                by_cases hv : v = u
                · rw [if_pos hv] at hl
                  cases hu : lookup r.1.active u with
                  | none =>
                    rw [hu] at hl; cases hl
                    exact ⟨now, data, t, List.mem_append_right _ (List.mem_singleton.2 (by rw [hv]; rfl))⟩
                  | some j =>
                    rw [hu] at hl; cases hl
                    obtain ⟨a, b, c, hm⟩ := g.act u j hu
                    exact ⟨a, b, c, List.mem_append_left _ (hv ▸ hm)⟩
                · rw [if_neg hv] at hl
                  obtain ⟨a, b, c, hm⟩ := g.act v i hl
                  exact ⟨a, b, c, List.mem_append_left _ hm⟩
              tmo := fun e he => by
                rw [uuids_snoc]
                rcases List.mem_append.1 he with he | he
                · exact List.mem_append_left _ (g.tmo e he)
                · cases t with
                  | none => cases he
                  | some t => simp at he; subst he; simp [uuidOf]
              nodup := fun hn => by
                rw [uuids_snoc] at hn
                have hn' := List.nodup_append.1 hn
                cases t with
                | none => simpa using g.nodup hn'.1
                | some t =>
                  simp only [Option.map_some, Option.toList_some, List.map_append, List.map_cons, List.map_nil]
                  refine List.nodup_append.2 ⟨g.nodup hn'.1, by simp, ?_⟩
                  intro a ha b hb'
                  obtain ⟨e, he, rfl⟩ := List.mem_map.1 ha
                  exact hn'.2.2 _ (g.tmo e he) b (by simpa [uuidOf] using hb')
              hnd := fun hs => g.hnd fun c => hs (List.mem_append_left _ c) }
  | hear m =>
    have e : r.1.step (.hear m) = r.1.hear m := by simp [Client.step, hp]
    rcases hear_cases r.1 m with ⟨_, ec⟩ | ⟨i, _, ec⟩
    · rw [onInput_eq hp (e.trans ec)]
      exact g.keep _ _ _ (by simp) (by simp) rfl (fun u i h => ⟨i, h, rfl⟩) rfl rfl
    · rw [onInput_eq hp (e.trans ec)]
      exact g.keep _ _ _ (by simp) (by simp) rfl (fun u i h => ⟨i, h, rfl⟩) rfl rfl
  | done =>
    have e : r.1.step .done = r.1.done := by simp [Client.step, hp]
    rcases done_cases r.1 with ⟨_, ec⟩ | ⟨u, _, ⟨_, ec⟩ | ⟨i, hi, ⟨_, ec⟩ | ⟨_, ec⟩⟩⟩
    · rw [onInput_eq hp (e.trans ec)]
      exact g.keep _ _ _ (by simp) (by simp) rfl (fun u i h => ⟨i, h, rfl⟩) rfl rfl
    · rw [onInput_eq hp (e.trans ec)] at hb; cases hb
    · rw [onInput_eq hp (e.trans ec)]
      refine g.keep _ _ _ (by simp) (by simp) rfl (fun v j h => ?_) rfl rfl
      simp only [lookup_erase] at h
      split at h
      · cases h
      · exact ⟨j, h, rfl⟩
    · rw [onInput_eq hp (e.trans ec)]
      refine g.keep _ _ _ (by simp) (by simp) rfl (fun v j h => ?_) rfl rfl
      simp only [lookup_decr] at h
      split at h
      · rename_i hv
        rw [hi] at h; cases h
        exact ⟨i, hv ▸ hi, rfl⟩
      · exact ⟨j, h, rfl⟩
  | tick now d =>
    rw [onInput_tick hp] at hb ⊢
    obtain ⟨e1, e2, e3⟩ := fold_expire_same hb
    generalize (due r.1.timeouts d).foldl (expire now) ({ r.1 with timeouts := rest r.1.timeouts d }, r.2) = r' at *
    exact { known := by
              rw [knownCount_snoc_ne h _ (by simp) (by simp), e1]; exact g.known
            act := fun u i hl => by
              by_cases hm : u ∈ due r.1.timeouts d
              · rw [e3 u hm] at hl; cases hl
              · rw [e2 u hm] at hl
                obtain ⟨a, b, c, hm⟩ := g.act u i hl
                exact ⟨a, b, c, List.mem_append_left _ hm⟩
            tmo := fun e he => by
              rw [uuids_snoc]
              rw [e1] at he
              have := (rest_uuids r.1.timeouts d).subset (List.mem_map.2 ⟨e, he, rfl⟩)
              obtain ⟨e', he', heq⟩ := List.mem_map.1 this
              exact List.mem_append_left _ (heq ▸ g.tmo e' he')
            nodup := fun hn => by
              rw [uuids_snoc] at hn
              rw [e1]
              exact (rest_uuids r.1.timeouts d).nodup (g.nodup (nodup_of_append hn))
            hnd := fun hs => by
              rw [e1]
              exact g.hnd fun c => hs (List.mem_append_left _ c) }

theorem snoc_induction {P : List In → Prop} (nil : P []) (snoc : ∀ l x, P l → P (l ++ [x])) (h : List In) : P h := by
  rw [← List.reverse_reverse h]
  induction h.reverse with
  | nil => exact nil
  | cons x l ih => rw [List.reverse_cons]; exact snoc _ _ ih

theorem solo_G (h : List In) : (solo h).1.ub = false → G h (solo h) := by
  refine snoc_induction (P := fun h => (solo h).1.ub = false → G h (solo h)) (fun _ => G_nil) (fun l x ih hb => ?_) h
  rw [solo_snoc] at hb ⊢
  exact G_step (ih (ub_prefix hb)) x hb

/-! ## Undefined behaviour is visible -/

theorem expire_vis {now : Int} {r : R} (h : r.1.ub = true ↔ Out.ub ∈ r.2) (u : Uuid) : (expire now r u).1.ub = true ↔ Out.ub ∈ (expire now r u).2 := by
  unfold expire
  by_cases hb : r.1.ub = true
  · simp only [hb, if_true]; simpa [hb] using h
  · simp only [hb, if_false, Bool.false_eq_true]
    cases hl : lookup r.1.active u with
    | none => simp
    | some i =>
      have hb' : Out.ub ∉ r.2 := fun c => hb (h.2 c)
      by_cases hh : r.1.handler = true <;> simp [hh, hb']

theorem fold_expire_vis {now : Int} (l : List Uuid) {r : R} (h : r.1.ub = true ↔ Out.ub ∈ r.2) :
    (l.foldl (expire now) r).1.ub = true ↔ Out.ub ∈ (l.foldl (expire now) r).2 := by
  induction l generalizing r with
  | nil => exact h
  | cons x l ih => exact ih (expire_vis h x)

theorem onInput_vis {r : R} (h : r.1.ub = true ↔ Out.ub ∈ r.2) (x : In) : (onInput r x).1.ub = true ↔ Out.ub ∈ (onInput r x).2 := by
  by_cases hb : r.1.ub = true
  · simp only [onInput, step_ub hb, List.append_nil]; exact h
  · have hb' : Out.ub ∉ r.2 := fun c => hb (h.2 c)
    have hp : r.1.ub = false := by simpa using hb
    cases x with
    | found => simp [onInput, Client.step, hp, hb']
    | lost => simp [onInput, Client.step, hp, hb']
    | setHandler b => simp [onInput, Client.step, hp, hb']
    | call now u ctx data t =>
      rcases call_cases r.1 now u ctx data t with ⟨_, ec⟩ | ⟨_, ec⟩
      · by_cases hh : r.1.handler = true <;> simp [onInput, Client.step, hp, hb', ec, hh]
      · simp [onInput, Client.step, hp, hb', ec]
    | hear m =>
      rcases hear_cases r.1 m with ⟨_, ec⟩ | ⟨i, _, ec⟩
      · simp [onInput, Client.step, hp, hb', ec]
      · by_cases hh : r.1.handler = true <;> simp [onInput, Client.step, hp, hb', ec, hh]
    | done =>
      rcases done_cases r.1 with ⟨_, ec⟩ | ⟨u, _, ⟨_, ec⟩ | ⟨i, hi, ⟨_, ec⟩ | ⟨_, ec⟩⟩⟩ <;> simp [onInput, Client.step, hp, hb', ec]
    | tick now d =>
      rw [onInput_tick hp]
      exact fold_expire_vis _ (by simp [hp, hb'])

theorem solo_vis (h : List In) : (solo h).1.ub = true ↔ Out.ub ∈ (solo h).2 := by
  refine snoc_induction (P := fun h => (solo h).1.ub = true ↔ Out.ub ∈ (solo h).2) (by simp [solo]) (fun l x ih => ?_) h
  rw [solo_snoc]
  exact onInput_vis ih x

theorem ub_false_of {h : List In} (hn : Out.ub ∉ (solo h).2) : (solo h).1.ub = false := by
  cases hb : (solo h).1.ub with
  | false => rfl
  | true => exact absurd ((solo_vis h).1 hb) hn

/-! ## Messages are handled one after the other -/

def ser (h : List In) : Option Bool := h.foldl serialStep (some false)

theorem ser_snoc (h : List In) (x : In) : ser (h ++ [x]) = serialStep (ser h) x := by simp [ser, List.foldl_append]

theorem foldl_serial_none (b : List In) : b.foldl serialStep none = none := by
  induction b with
  | nil => rfl
  | cons x b ih => simpa [serialStep] using ih

theorem serial_prefix {a b : List In} (h : Serial (a ++ b)) : Serial a := by
  unfold Serial at h ⊢
  rw [List.foldl_append] at h
  cases ha : a.foldl serialStep (some false) with
  | none => rw [ha, foldl_serial_none] at h; cases h
  | some _ => rfl

structure S (h : List In) (c : Client) : Prop where
  idle : ser h = some false → c.cur = none
  cur : Serial h → ∀ u, c.cur = some u → ∃ i, lookup c.active u = some i

theorem S_step {h : List In} {r : R} (s : S h r.1) (x : In) (hb : (onInput r x).1.ub = false) : S (h ++ [x]) (onInput r x).1 := by
  have hp := ub_prefix hb
  refine ⟨fun he => ?_, fun hs u hu => ?_⟩
  · rw [ser_snoc] at he
    cases hq : ser h with
    | none => rw [hq] at he; simp [serialStep] at he
    | some q =>
      rw [hq] at he
      cases x with
      | found =>
        have := s.idle
        cases q <;> simp_all [serialStep, onInput, Client.step]
      | lost =>
        have := s.idle
        cases q <;> simp_all [serialStep, onInput, Client.step]
      | setHandler b =>
        have := s.idle
        cases q <;> simp_all [serialStep, onInput, Client.step]
      | call now u ctx data t =>
        have := s.idle
        rcases call_cases r.1 now u ctx data t with ⟨_, ec⟩ | ⟨_, ec⟩ <;> cases q <;> simp_all [serialStep, onInput, Client.step]
      | hear m => cases q <;> simp [serialStep] at he
      | done =>
        rcases done_cases r.1 with ⟨hc, ec⟩ | ⟨u, _, ⟨_, ec⟩ | ⟨i, hi, ⟨_, ec⟩ | ⟨_, ec⟩⟩⟩
        · simp [onInput, Client.step, hp, ec, hc]
        · simp [onInput, Client.step, hp, ec] at hb
        · simp [onInput, Client.step, hp, ec]
        · simp [onInput, Client.step, hp, ec]
      | tick now d =>
        cases q with
        | true => simp [serialStep] at he
        | false =>
          rw [onInput_tick hp] at hb ⊢
          rw [(fold_expire_same hb).1]
          exact s.idle hq
  · have hs' := serial_prefix hs
    cases x with
    | found => simp [onInput, Client.step, hp] at hu ⊢; exact s.cur hs' u hu
    | lost => simp [onInput, Client.step, hp] at hu ⊢; exact s.cur hs' u hu
    | setHandler b => simp [onInput, Client.step, hp] at hu ⊢; exact s.cur hs' u hu
    | call now v ctx data t =>
      rcases call_cases r.1 now v ctx data t with ⟨_, ec⟩ | ⟨_, ec⟩
      · simp [onInput, Client.step, hp, ec] at hu ⊢; exact s.cur hs' u hu
      · simp [onInput, Client.step, hp, ec] at hu ⊢
        obtain ⟨i, hi⟩ := s.cur hs' u hu
        rw [lookup_emplace]
        split
        · exact ⟨_, rfl⟩
        · exact ⟨i, hi⟩
    | hear m =>
      rcases hear_cases r.1 m with ⟨_, ec⟩ | ⟨i, hi, ec⟩
      · simp [onInput, Client.step, hp, ec] at hu ⊢; exact s.cur hs' u hu
      · simp [onInput, Client.step, hp, ec] at hu ⊢
        exact ⟨i, hu ▸ hi⟩
    | done =>
      rcases done_cases r.1 with ⟨hc, ec⟩ | ⟨u, _, ⟨_, ec⟩ | ⟨i, hi, ⟨_, ec⟩ | ⟨_, ec⟩⟩⟩
      · simp [onInput, Client.step, hp, ec, hc] at hu
      · simp [onInput, Client.step, hp, ec] at hb
      · simp [onInput, Client.step, hp, ec] at hu
      · simp [onInput, Client.step, hp, ec] at hu
    | tick now d =>
      exfalso
      unfold Serial at hs
      rw [List.foldl_append] at hs
      have h1 := s.idle
      unfold ser at h1
      rw [onInput_tick hp] at hb hu
      rw [(fold_expire_same hb).1] at hu
      cases hq : h.foldl serialStep (some false) with
      | none => rw [hq] at hs; simp [serialStep] at hs
      | some q =>
        cases q with
        | true => rw [hq] at hs; simp [serialStep] at hs
        | false => rw [h1 hq] at hu; cases hu

theorem solo_S (h : List In) : (solo h).1.ub = false → S h (solo h).1 := by
  refine snoc_induction (P := fun h => (solo h).1.ub = false → S h (solo h).1) (fun _ => ⟨fun _ => rfl, fun _ u hu => by cases hu⟩) (fun l x ih hb => ?_) h
  rw [solo_snoc] at hb ⊢
  exact S_step (ih (ub_prefix hb)) x hb

end SilKit.Rpc
