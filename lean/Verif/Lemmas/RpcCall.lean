import Verif.Lemmas.Rpc
/-!
# Lemmas about one call of a client
-/
namespace SilKit.Rpc
open Spec

theorem results_mk (ctx : Ctx) (now : Int) (st : CallStatus) (d : Data) : results ctx [.result ⟨now, ctx, st, d⟩] = [⟨now, ctx, st, d⟩] :=
  results_one rfl

/-! ## Where results come from -/

theorem ctxs_snoc (h : List In) (x : In) : ctxs (h ++ [x]) = ctxs h ++ (ctxOf x).toList := by
  simp only [ctxs, List.filterMap_append]
  cases hx : ctxOf x <;> simp [hx]

theorem mem_ctxs_of_call {h : List In} {now : Int} {u : Uuid} {c : Ctx} {d : Data} {t : Option Int} (hm : In.call now u c d t ∈ h) : c ∈ ctxs h :=
  List.mem_filterMap.2 ⟨_, hm, rfl⟩

theorem mem_uuids_of_call {h : List In} {now : Int} {u : Uuid} {c : Ctx} {d : Data} {t : Option Int} (hm : In.call now u c d t ∈ h) : u ∈ uuids h :=
  List.mem_filterMap.2 ⟨_, hm, rfl⟩

theorem le_sum_of_mem {l : List Nat} {x : Nat} (h : x ∈ l) : x ≤ l.sum := by
  induction l with
  | nil => cases h
  | cons y l ih =>
    rw [List.sum_cons]
    rcases List.mem_cons.1 h with e | e
    · omega
    · have := ih e; omega

/-- A client without trouble only reports contexts of calls. -/
theorem step_ctx {h : List In} {r : R} (g : G h r) (x : In) (hb : (onInput r x).1.ub = false) {ctx : Ctx} (hn : ctx ∉ ctxs (h ++ [x])) :
    results ctx (onInput r x).2 = results ctx r.2 := by
  have hp := ub_prefix hb
  rw [ctxs_snoc] at hn
  have hn1 : ctx ∉ ctxs h := fun c => hn (List.mem_append_left _ c)
  have hne : ∀ u i, lookup r.1.active u = some i → i.ctx ≠ ctx := fun u i hi c => by
    obtain ⟨_, _, _, hm⟩ := g.act u i hi
    exact hn1 (c ▸ mem_ctxs_of_call hm)
  cases x with
  | found => simp [onInput, Client.step, hp]
  | lost => simp [onInput, Client.step, hp]
  | setHandler b => simp [onInput, Client.step, hp]
  | call now u c data t =>
    have hc : c ≠ ctx := fun e => hn (List.mem_append_right _ (by simp [ctxOf, e]))
    have e : r.1.step (.call now u c data t) = r.1.call now u c data t := by simp [Client.step, hp]
    rcases call_cases r.1 now u c data t with ⟨_, ec⟩ | ⟨_, ec⟩
    · rw [onInput_eq hp (e.trans ec)]
      simp only [results_append]
      split
      · rw [results_one_ne hc, List.append_nil]
      · rw [show results ctx [] = [] from rfl, List.append_nil]
    · rw [onInput_eq hp (e.trans ec)]
      simp [results, resultOf, List.filterMap_append]
  | hear m =>
    have e : r.1.step (.hear m) = r.1.hear m := by simp [Client.step, hp]
    rcases hear_cases r.1 m with ⟨_, ec⟩ | ⟨i, hi, ec⟩
    · rw [onInput_eq hp (e.trans ec), List.append_nil]
    · rw [onInput_eq hp (e.trans ec)]
      simp only [results_append]
      split
      · rw [results_one_ne (by exact hne _ _ hi), List.append_nil]
      · rw [show results ctx [] = [] from rfl, List.append_nil]
  | done =>
    have e : r.1.step .done = r.1.done := by simp [Client.step, hp]
    rcases done_cases r.1 with ⟨_, ec⟩ | ⟨u, _, ⟨_, ec⟩ | ⟨i, hi, ⟨_, ec⟩ | ⟨_, ec⟩⟩⟩
    · rw [onInput_eq hp (e.trans ec), List.append_nil]
    · rw [onInput_eq hp (e.trans ec)] at hb; cases hb
    · rw [onInput_eq hp (e.trans ec), List.append_nil]
    · rw [onInput_eq hp (e.trans ec), List.append_nil]
  | tick now d =>
    rw [onInput_tick hp] at hb ⊢
    have := fold_expire_results_ne (u := (due r.1.timeouts d).sum + 1) (ctx := ctx) hb (fun v i hi c => absurd c (hne v i hi)) (fun hm => ?_)
    · exact this
    · exact absurd (le_sum_of_mem hm) (by omega)

theorem solo_ctx (h : List In) : (solo h).1.ub = false → ∀ {ctx : Ctx}, ctx ∉ ctxs h → results ctx (solo h).2 = [] := by
  refine snoc_induction (P := fun h => (solo h).1.ub = false → ∀ {ctx : Ctx}, ctx ∉ ctxs h → results ctx (solo h).2 = []) (fun _ _ _ => rfl) (fun l x ih hb ctx hn => ?_) h
  rw [solo_snoc] at hb ⊢
  rw [step_ctx (solo_G l (ub_prefix hb)) x hb hn]
  rw [ctxs_snoc] at hn
  exact ih (ub_prefix hb) fun c => hn (List.mem_append_left _ c)

/-! ## Entries of one call -/

def mine (u : Uuid) (l : List (Int × Uuid)) : List (Int × Uuid) := l.filter fun e => e.2 == u

theorem mem_due {l : List (Int × Uuid)} {d : Nat} {u : Uuid} : u ∈ due l d ↔ ∃ e ∈ mine u l, e.1 - d ≤ 0 := by
  constructor
  · intro h
    obtain ⟨e, he, hu⟩ := List.mem_map.1 h
    obtain ⟨he, hd⟩ := List.mem_filter.1 he
    obtain ⟨e', he', rfl⟩ := List.mem_map.1 he
    exact ⟨e', List.mem_filter.2 ⟨he', by simpa [shorten] using hu⟩, of_decide_eq_true hd⟩
  · rintro ⟨e, he, hd⟩
    obtain ⟨he, hu⟩ := List.mem_filter.1 he
    refine List.mem_map.2 ⟨shorten d e, List.mem_filter.2 ⟨List.mem_map.2 ⟨e, he, rfl⟩, decide_eq_true hd⟩, by simpa [shorten] using hu⟩

theorem mine_rest (l : List (Int × Uuid)) (d : Nat) (u : Uuid) :
    mine u (rest l d) = ((mine u l).map (shorten d)).filter fun e => !decide (e.1 ≤ 0) := by
  unfold mine rest
  rw [List.filter_filter, List.map_filter_shorten, List.filter_filter]
  exact List.filter_congr fun e _ => Bool.and_comm _ _
where
  List.map_filter_shorten : ∀ {l : List (Int × Uuid)}, (l.filter fun e => e.2 == u).map (shorten d) = (l.map (shorten d)).filter fun e => e.2 == u := by
    intro l
    rw [List.filter_map]
    rfl

theorem mine_append (u : Uuid) (a b : List (Int × Uuid)) : mine u (a ++ b) = mine u a ++ mine u b := List.filter_append _ _

/-- The part of the state that belongs to a call. -/
structure Same (u : Uuid) (ctx : Ctx) (r r' : R) : Prop where
  act : lookup r'.1.active u = lookup r.1.active u
  res : results ctx r'.2 = results ctx r.2
  cur : r'.1.cur = some u ↔ r.1.cur = some u

/-- Inputs that have nothing to do with a call. -/
def Other (u : Uuid) (ctx : Ctx) : In → Prop
  | .call _ v c _ _ => v ≠ u ∧ c ≠ ctx
  | .hear m => m.uuid ≠ u
  | .tick _ _ => False
  | _ => True

theorem same_of_other {r : R} {u : Uuid} {ctx : Ctx} {x : In} (hx : Other u ctx x) (ha : Alone u ctx r.1) (hc : r.1.cur = some u → x ≠ .done)
    (hh : ∀ m, x = .hear m → r.1.cur = none) (hb : (onInput r x).1.ub = false) :
    Same u ctx r (onInput r x) ∧ mine u (onInput r x).1.timeouts = mine u r.1.timeouts := by
  have hp := ub_prefix hb
  cases x with
  | found => refine ⟨⟨?_, ?_, ?_⟩, ?_⟩ <;> simp [onInput, Client.step, hp]
  | lost => refine ⟨⟨?_, ?_, ?_⟩, ?_⟩ <;> simp [onInput, Client.step, hp]
  | setHandler b => refine ⟨⟨?_, ?_, ?_⟩, ?_⟩ <;> simp [onInput, Client.step, hp]
  | call now v c data t =>
    obtain ⟨hv, hcc⟩ := hx
    have e : r.1.step (.call now v c data t) = r.1.call now v c data t := by simp [Client.step, hp]
    rcases call_cases r.1 now v c data t with ⟨_, ec⟩ | ⟨_, ec⟩
    · rw [onInput_eq hp (e.trans ec)]
      refine ⟨⟨rfl, ?_, Iff.rfl⟩, rfl⟩
      simp only [results_append]
      split
      · rw [results_one_ne hcc, List.append_nil]
      · rw [show results ctx [] = [] from rfl, List.append_nil]
    · rw [onInput_eq hp (e.trans ec)]
      refine ⟨⟨?_, ?_, Iff.rfl⟩, ?_⟩
      · simp only [lookup_emplace]
        rw [if_neg (fun c => hv c.symm)]
      · simp [results, resultOf, List.filterMap_append]
      · simp only [mine_append]
        cases t with
        | none => simp [mine]
        | some t => simp [mine, hv]
  | hear m =>
    have hcn := hh m rfl
    have e : r.1.step (.hear m) = r.1.hear m := by simp [Client.step, hp]
    rcases hear_cases r.1 m with ⟨_, ec⟩ | ⟨i, hi, ec⟩
    · rw [onInput_eq hp (e.trans ec), List.append_nil]
      exact ⟨⟨rfl, rfl, Iff.rfl⟩, rfl⟩
    · rw [onInput_eq hp (e.trans ec)]
      have hic : i.ctx ≠ ctx := fun c => hx (ha _ _ hi c)
      refine ⟨⟨rfl, ?_, ?_⟩, rfl⟩
      · simp only [results_append]
        split
        · rw [results_one_ne (by exact hic), List.append_nil]
        · rw [show results ctx [] = [] from rfl, List.append_nil]
      · simp only [hcn, Option.some.injEq]
        exact ⟨fun c => absurd c hx, fun c => (by cases c)⟩
  | done =>
    have e : r.1.step .done = r.1.done := by simp [Client.step, hp]
    rcases done_cases r.1 with ⟨_, ec⟩ | ⟨v, hv, ⟨_, ec⟩ | ⟨i, hi, ⟨_, ec⟩ | ⟨_, ec⟩⟩⟩
    · rw [onInput_eq hp (e.trans ec), List.append_nil]
      exact ⟨⟨rfl, rfl, Iff.rfl⟩, rfl⟩
    · rw [onInput_eq hp (e.trans ec)] at hb; cases hb
    · have hvu : ¬ u = v := fun c => hc (c ▸ hv) rfl
      rw [onInput_eq hp (e.trans ec), List.append_nil]
      refine ⟨⟨by simp only [lookup_erase, if_neg hvu], rfl, ?_⟩, rfl⟩
      simp only [hv, Option.some.injEq]
      exact ⟨fun c => (by cases c), fun c => absurd c.symm hvu⟩
    · have hvu : ¬ u = v := fun c => hc (c ▸ hv) rfl
      rw [onInput_eq hp (e.trans ec), List.append_nil]
      refine ⟨⟨by simp only [lookup_decr, if_neg hvu], rfl, ?_⟩, rfl⟩
      simp only [hv, Option.some.injEq]
      exact ⟨fun c => (by cases c), fun c => absurd c.symm hvu⟩
  | tick now d => exact absurd hx id

theorem same_of_tick {r : R} {u : Uuid} {ctx : Ctx} {now : Int} {d : Nat} (ha : Alone u ctx r.1) (hu : u ∉ due r.1.timeouts d)
    (hb : (onInput r (.tick now d)).1.ub = false) :
    Same u ctx r (onInput r (.tick now d)) ∧ mine u (onInput r (.tick now d)).1.timeouts = mine u (rest r.1.timeouts d) := by
  have hp := ub_prefix hb
  rw [onInput_tick hp] at hb ⊢
  obtain ⟨e1, e2, e3⟩ := fold_expire_same hb
  have e4 := fold_expire_results_ne (u := u) (ctx := ctx) hb ha hu
  refine ⟨⟨e2 u hu, e4, by rw [e1]⟩, by rw [e1]⟩

theorem tick_now {r : R} {u : Uuid} {ctx : Ctx} {now : Int} {d : Nat} (ha : Alone u ctx r.1) (hu : u ∈ due r.1.timeouts d)
    (hn : (r.1.timeouts.map (·.2)).Nodup) {i : Info} (hi : lookup r.1.active u = some i) (hc : i.ctx = ctx)
    (hb : (onInput r (.tick now d)).1.ub = false) :
    lookup (onInput r (.tick now d)).1.active u = none ∧ results ctx (onInput r (.tick now d)).2 = results ctx r.2 ++ [⟨now, ctx, .timeout, []⟩] ∧
    (onInput r (.tick now d)).1.cur = r.1.cur ∧ mine u (onInput r (.tick now d)).1.timeouts = mine u (rest r.1.timeouts d) := by
  have hp := ub_prefix hb
  rw [onInput_tick hp] at hb ⊢
  obtain ⟨e1, e2, e3⟩ := fold_expire_same hb
  have e4 := fold_expire_results_mem (u := u) (ctx := ctx) hb ha hu ((due_uuids _ _).nodup hn) hi hc
  refine ⟨e3 u hu, e4, by rw [e1], by rw [e1]⟩

/-! ## One call -/

theorem Spec.Case.prefix {a b : List In} {u : Uuid} {ctx : Ctx} {x : In} (c : Case a u ctx (b ++ [x])) : Case a u ctx b where
  freshA := c.freshA
  freshB h := c.freshB (by rw [uuids_snoc]; exact List.mem_append_left _ h)
  ctxA := c.ctxA
  ctxB h := c.ctxB (by rw [ctxs_snoc]; exact List.mem_append_left _ h)
  handler h := c.handler (by rw [← List.append_assoc]; exact List.mem_append_left _ h)

theorem Spec.Case.alone {a b : List In} {u : Uuid} {ctx : Ctx} (c : Case a u ctx b) {now : Int} {data : Data} {t : Option Int} {r : R}
    (g : G (a ++ .call now u ctx data t :: b) r) : Alone u ctx r.1 := by
  intro v i hi hc
  obtain ⟨n, d, t', hm⟩ := g.act v i hi
  rw [hc] at hm
  rcases List.mem_append.1 hm with hm | hm
  · exact absurd (mem_ctxs_of_call hm) c.ctxA
  · rcases List.mem_cons.1 hm with hm | hm
    · injection hm
    · exact absurd (mem_ctxs_of_call hm) c.ctxB

/-- While the time for the call has not passed: the call with `n` known servers. -/
structure P1 (u : Uuid) (ctx : Ctx) (n : Nat) (t : Option Int) (b : List In) (r : R) : Prop where
  busy : r.1.cur = some u → ∃ k, (answers u b).length = k + 1 ∧ k < n ∧ lookup r.1.active u = some ⟨(n : Int) - k, ctx⟩
  free : r.1.cur ≠ some u → lookup r.1.active u = if (answers u b).length < n then some ⟨(n : Int) - (answers u b).length, ctx⟩ else none
  res : results ctx r.2 = ((answers u b).take n).map (asResult ctx)
  tmo : mine u r.1.timeouts = (t.map fun t : Int => (t - (elapsed b : Int), u)).toList

/-- The time for a call has passed, or it has no known servers: nothing more happens. -/
structure P2 (u : Uuid) (ctx : Ctx) (rs : List Result) (r : R) : Prop where
  cur : r.1.cur ≠ some u
  act : lookup r.1.active u = none
  res : results ctx r.2 = rs
  tmo : mine u r.1.timeouts = []

theorem answers_snoc (u : Uuid) (b : List In) (x : In) : answers u (b ++ [x]) = answers u b ++ (answerTo u x).toList := by
  simp only [answers, List.filterMap_append]
  cases hx : answerTo u x <;> simp [hx]

theorem elapsed_snoc (b : List In) (x : In) : elapsed (b ++ [x]) = elapsed b + durOf x := by
  simp [elapsed]

theorem answers_other {u : Uuid} {ctx : Ctx} {x : In} (hx : Other u ctx x) (b : List In) : answers u (b ++ [x]) = answers u b := by
  rw [answers_snoc]
  cases x <;> simp_all [Other, answerTo]

theorem elapsed_other {u : Uuid} {ctx : Ctx} {x : In} (hx : Other u ctx x) (b : List In) : elapsed (b ++ [x]) = elapsed b := by
  rw [elapsed_snoc]
  cases x <;> simp_all [Other, durOf]

theorem P1.other {u : Uuid} {ctx : Ctx} {n : Nat} {t : Option Int} {b : List In} {r r' : R} {x : In} (p : P1 u ctx n t b r)
    (s : Same u ctx r r') (ha : answers u (b ++ [x]) = answers u b) (ht : mine u r'.1.timeouts = (t.map fun t : Int => (t - (elapsed (b ++ [x]) : Int), u)).toList) :
    P1 u ctx n t (b ++ [x]) r' where
  busy h := by rw [ha, s.act]; exact p.busy (s.cur.1 h)
  free h := by rw [ha, s.act]; exact p.free (fun c => h (s.cur.2 c))
  res := by rw [ha, s.res]; exact p.res
  tmo := ht

theorem P2.other {u : Uuid} {ctx : Ctx} {rs : List Result} {r r' : R} (p : P2 u ctx rs r) (s : Same u ctx r r')
    (ht : mine u r'.1.timeouts = []) : P2 u ctx rs r' where
  cur h := p.cur (s.cur.1 h)
  act := s.act.trans p.act
  res := s.res.trans p.res
  tmo := ht

/-- A serial history before a message or a step. -/
theorem serial_idle {h : List In} {x : In} (hs : Serial (h ++ [x])) (hx : (∃ m, x = .hear m) ∨ ∃ now d, x = .tick now d) : ser h = some false := by
  have h1 : ser (h ++ [x]) ≠ none := by
    intro c
    unfold Serial at hs
    unfold ser at c
    rw [c] at hs
    cases hs
  rw [ser_snoc] at h1
  cases hq : ser h with
  | none => rw [hq] at h1; exact absurd rfl h1
  | some q =>
    cases q with
    | false => rfl
    | true =>
      rw [hq] at h1
      rcases hx with ⟨m, rfl⟩ | ⟨now, d, rfl⟩
      · exact absurd rfl h1
      · exact absurd rfl h1

theorem asResult_eq (ctx : Ctx) (m : Response) : asResult ctx m = ⟨m.now, ctx, toCallStatus m.status, m.data⟩ := by
  unfold asResult
  cases m.status <;> rfl

/-- What an input that is not a step does to the call. -/
theorem P1_step {h b : List In} {u : Uuid} {ctx : Ctx} {n : Nat} {t : Option Int} {r : R} {x : In} (p : P1 u ctx n t b r) (g : G h r) (s : S h r.1)
    (ha : Alone u ctx r.1) (hs : Serial (h ++ [x])) (hh : r.1.handler = true) (hu : uuidOf x ≠ some u) (hc : ctxOf x ≠ some ctx)
    (hx : ∀ now d, x ≠ .tick now d) (hb : (onInput r x).1.ub = false) : P1 u ctx n t (b ++ [x]) (onInput r x) := by
  have hp := ub_prefix hb
  have oth : Other u ctx x → (r.1.cur = some u → x ≠ .done) → P1 u ctx n t (b ++ [x]) (onInput r x) := fun ho hd => by
    obtain ⟨h1, h2⟩ := same_of_other ho ha hd (fun m hm => s.idle (serial_idle hs (.inl ⟨m, hm⟩))) hb
    exact p.other h1 (answers_other ho b) (by rw [h2, p.tmo, elapsed_other ho])
  cases x with
  | found => exact oth trivial (by simp)
  | lost => exact oth trivial (by simp)
  | setHandler _ => exact oth trivial (by simp)
  | call now v c data t' => exact oth ⟨fun e => hu (by simp [uuidOf, e]), fun e => hc (by simp [ctxOf, e])⟩ (by simp)
  | tick now d => exact absurd rfl (hx now d)
  | hear m =>
    by_cases hm : m.uuid = u
    · have hcn := s.idle (serial_idle hs (.inl ⟨m, rfl⟩))
      have hf := p.free (by rw [hcn]; simp)
      have ea : answers u (b ++ [.hear m]) = answers u b ++ [m] := by rw [answers_snoc]; simp [answerTo, hm]
      have e : r.1.step (.hear m) = r.1.hear m := by simp [Client.step, hp]
      have et : elapsed (b ++ [.hear m]) = elapsed b := by rw [elapsed_snoc]; rfl
      by_cases hl : (answers u b).length < n
      · rw [if_pos hl] at hf
        rcases hear_cases r.1 m with ⟨hi, _⟩ | ⟨i, hi, ec⟩
        · rw [hm, hf] at hi; cases hi
        · rw [hm, hf] at hi; cases hi
          rw [onInput_eq hp (e.trans ec)]
          refine ⟨fun _ => ⟨(answers u b).length, by rw [ea]; simp, hl, hf⟩, fun hne => absurd (by simp only [hm]) hne, ?_, by rw [et]; exact p.tmo⟩
          rw [ea]
          simp only [hh, if_true, results_append]
          rw [results_mk, p.res, List.take_of_length_le (by omega), List.take_of_length_le (by simp; omega), List.map_append, List.map_singleton, asResult_eq]
      · rw [if_neg hl] at hf
        rcases hear_cases r.1 m with ⟨hi, ec⟩ | ⟨i, hi, ec⟩
        · rw [onInput_eq hp (e.trans ec), List.append_nil]
          refine ⟨fun hcu => (by rw [hcn] at hcu; cases hcu), fun _ => ?_, ?_, by rw [et]; exact p.tmo⟩
          · rw [ea, if_neg (by simp; omega)]; exact hf
          · rw [ea, p.res, List.take_append_of_le_length (by omega)]
        · rw [hm, hf] at hi; cases hi
    · exact oth hm (by simp)
  | done =>
    by_cases hcu : r.1.cur = some u
    · obtain ⟨k, hk, hkn, hl⟩ := p.busy hcu
      have ea : answers u (b ++ [.done]) = answers u b := by rw [answers_snoc]; simp [answerTo]
      have et : elapsed (b ++ [.done]) = elapsed b := by rw [elapsed_snoc]; rfl
      have e : r.1.step .done = r.1.done := by simp [Client.step, hp]
      rcases done_cases r.1 with ⟨hv, ec⟩ | ⟨v, hv, ⟨_, ec⟩ | ⟨i, hi, ⟨hle, ec⟩ | ⟨hlt, ec⟩⟩⟩
      · rw [hcu] at hv; cases hv
      · rw [onInput_eq hp (e.trans ec)] at hb; cases hb
      · rw [hcu] at hv; cases hv
        rw [hl] at hi; cases hi
        rw [onInput_eq hp (e.trans ec), List.append_nil]
        simp only at hle
        refine ⟨fun c => (by cases c), fun _ => ?_, by rw [ea]; exact p.res, by rw [et]; exact p.tmo⟩
        simp only [lookup_erase, if_true]
        rw [ea, if_neg (by omega)]
      · rw [hcu] at hv; cases hv
        rw [hl] at hi; cases hi
        rw [onInput_eq hp (e.trans ec), List.append_nil]
        simp only at hlt
        refine ⟨fun c => (by cases c), fun _ => ?_, by rw [ea]; exact p.res, by rw [et]; exact p.tmo⟩
        simp only [lookup_decr, if_true, hl, Option.map_some]
        rw [ea, if_pos (by omega)]
        simp only [Option.some.injEq, Info.mk.injEq, and_true]
        omega
    · exact oth trivial (fun c => absurd c hcu)

theorem P2_step {h : List In} {u : Uuid} {ctx : Ctx} {rs : List Result} {r : R} {x : In} (p : P2 u ctx rs r) (s : S h r.1)
    (ha : Alone u ctx r.1) (hs : Serial (h ++ [x])) (hu : uuidOf x ≠ some u) (hc : ctxOf x ≠ some ctx)
    (hb : (onInput r x).1.ub = false) : P2 u ctx rs (onInput r x) := by
  have hp := ub_prefix hb
  have oth : Other u ctx x → P2 u ctx rs (onInput r x) := fun ho => by
    obtain ⟨h1, h2⟩ := same_of_other ho ha (fun c => absurd c p.cur) (fun m hm => s.idle (serial_idle hs (.inl ⟨m, hm⟩))) hb
    exact p.other h1 (h2.trans p.tmo)
  cases x with
  | found => exact oth trivial
  | lost => exact oth trivial
  | setHandler _ => exact oth trivial
  | call now v c data t' => exact oth ⟨fun e => hu (by simp [uuidOf, e]), fun e => hc (by simp [ctxOf, e])⟩
  | tick now d =>
    have hd : u ∉ due r.1.timeouts d := by
      rw [mem_due, p.tmo]
      rintro ⟨e, he, _⟩
      cases he
    obtain ⟨h1, h2⟩ := same_of_tick ha hd hb
    exact p.other h1 (by rw [h2, mine_rest, p.tmo]; rfl)
  | hear m =>
    by_cases hm : m.uuid = u
    · have e : r.1.step (.hear m) = r.1.hear m := by simp [Client.step, hp]
      rcases hear_cases r.1 m with ⟨hi, ec⟩ | ⟨i, hi, ec⟩
      · rw [onInput_eq hp (e.trans ec), List.append_nil]; exact p
      · rw [hm, p.act] at hi; cases hi
    · exact oth hm
  | done => exact oth trivial

theorem not_expired_prefix {t : Int} {b : List In} {x : In} (h : ¬ Expired t (b ++ [x])) : ¬ Expired t b := by
  rintro ⟨⟨y, hy, hyt⟩, ht⟩
  refine h ⟨⟨y, List.mem_append_left _ hy, hyt⟩, ?_⟩
  rw [elapsed_snoc]
  omega

theorem snoc_mid (a b : List In) (c x : In) : a ++ c :: (b ++ [x]) = (a ++ c :: b) ++ [x] := by simp

section
variable {a b : List In} {now : Int} {u : Uuid} {ctx : Ctx} {data : Data} {t : Option Int} {n : Nat}

theorem toInt32_of_lt (h : n < 2 ^ 31) : toInt32 n = n := by simp only [toInt32, if_pos h]

/-- The call itself. -/
theorem P1_start (cs : Case a u ctx []) (hn0 : 0 < n) (hn : n < 2 ^ 31) (hk : knownCount a = n) (hs : Serial a)
    (hb : (solo (a ++ [.call now u ctx data t])).1.ub = false) :
    P1 u ctx n t [] (solo (a ++ [.call now u ctx data t])) := by
  rw [solo_snoc] at hb ⊢
  have hp := ub_prefix hb
  have g := solo_G a hp
  have s := solo_S a hp
  have hr := solo_ctx a hp cs.ctxA
  generalize solo a = r at *
  have hl : lookup r.1.active u = none := by
    cases hl : lookup r.1.active u with
    | none => rfl
    | some i =>
      obtain ⟨_, _, _, hm⟩ := g.act u i hl
      exact absurd (mem_uuids_of_call hm) cs.freshA
  have hcu : r.1.cur ≠ some u := fun c => by
    obtain ⟨i, hi⟩ := s.cur hs u c
    rw [hl] at hi; cases hi
  have hkn : r.1.known = n := by
    have := g.known
    rw [hk] at this
    omega
  have hm : mine u r.1.timeouts = [] := by
    rw [mine, List.filter_eq_nil_iff]
    intro e he hc
    exact cs.freshA ((by simpa using hc : e.2 = u) ▸ g.tmo e he)
  have e : r.1.step (.call now u ctx data t) = r.1.call now u ctx data t := by simp [Client.step, hp]
  rcases call_cases r.1 now u ctx data t with ⟨h0, _⟩ | ⟨_, ec⟩
  · omega
  · rw [onInput_eq hp (e.trans ec)]
    refine ⟨fun c => absurd c hcu, fun _ => ?_, ?_, ?_⟩
    · simp only [lookup_emplace, if_true, hl, Option.getD_none, hkn, toInt32_of_lt hn]
      rw [if_pos (by simpa [answers] using hn0)]
      simp [answers]
    · rw [results_append, hr]
      simp [results, resultOf, answers]
    · simp only [mine_append, hm, List.nil_append]
      cases t <;> simp [mine, elapsed]

/-- The call of a client that knows no server. -/
theorem P2_start (cs : Case a u ctx []) (hk : knownCount a = 0) (hs : Serial a)
    (hb : (solo (a ++ [.call now u ctx data t])).1.ub = false) :
    P2 u ctx [⟨now, ctx, .serverNotReachable, []⟩] (solo (a ++ [.call now u ctx data t])) := by
  rw [solo_snoc] at hb ⊢
  have hp := ub_prefix hb
  have g := solo_G a hp
  have s := solo_S a hp
  have hr := solo_ctx a hp cs.ctxA
  generalize solo a = r at *
  have hl : lookup r.1.active u = none := by
    cases hl : lookup r.1.active u with
    | none => rfl
    | some i =>
      obtain ⟨_, _, _, hm⟩ := g.act u i hl
      exact absurd (mem_uuids_of_call hm) cs.freshA
  have hcu : r.1.cur ≠ some u := fun c => by
    obtain ⟨i, hi⟩ := s.cur hs u c
    rw [hl] at hi; cases hi
  have hkn : r.1.known = 0 := by
    have := g.known
    rw [hk] at this
    omega
  have hm : mine u r.1.timeouts = [] := by
    rw [mine, List.filter_eq_nil_iff]
    intro e he hc
    exact cs.freshA ((by simpa using hc : e.2 = u) ▸ g.tmo e he)
  have hh := g.hnd (fun c => cs.handler (by simpa using c))
  have e : r.1.step (.call now u ctx data t) = r.1.call now u ctx data t := by simp [Client.step, hp]
  rcases call_cases r.1 now u ctx data t with ⟨h0, ec⟩ | ⟨h0, _⟩
  · rw [onInput_eq hp (e.trans ec)]
    refine ⟨hcu, hl, ?_, hm⟩
    simp only [hh, if_true, results_append, hr]
    rw [results_mk]; rfl
  · exact absurd hkn h0

theorem mid_handler (cs : Case a u ctx b) {now : Int} {data : Data} {t : Option Int} : In.setHandler false ∉ a ++ .call now u ctx data t :: b := by
  intro c
  rcases List.mem_append.1 c with c | c
  · exact cs.handler (List.mem_append_left _ c)
  · rcases List.mem_cons.1 c with c | c
    · cases c
    · exact cs.handler (List.mem_append_right _ c)

theorem other_uuid {x : In} (cs : Case a u ctx (b ++ [x])) : uuidOf x ≠ some u ∧ ctxOf x ≠ some ctx := by
  constructor
  · intro h
    refine cs.freshB ?_
    rw [uuids_snoc, h]
    simp
  · intro h
    refine cs.ctxB ?_
    rw [ctxs_snoc, h]
    simp

theorem P1_run (hn0 : 0 < n) (hn : n < 2 ^ 31) (hk : knownCount a = n) (b : List In) : Case a u ctx b → Serial (a ++ .call now u ctx data t :: b) →
    (∀ t', t = some t' → ¬ Expired t' b) → (solo (a ++ .call now u ctx data t :: b)).1.ub = false →
    P1 u ctx n t b (solo (a ++ .call now u ctx data t :: b)) := by
  refine snoc_induction (P := fun b => Case a u ctx b → Serial (a ++ .call now u ctx data t :: b) →
    (∀ t', t = some t' → ¬ Expired t' b) → (solo (a ++ .call now u ctx data t :: b)).1.ub = false →
    P1 u ctx n t b (solo (a ++ .call now u ctx data t :: b))) ?_ ?_ b
  · intro cs hs _ hb
    exact P1_start cs hn0 hn hk (serial_prefix hs) hb
  · intro b x ih cs hs hx hb
    rw [snoc_mid] at hs hb ⊢
    rw [solo_snoc] at hb ⊢
    have hp := ub_prefix hb
    have p := ih cs.prefix (serial_prefix hs) (fun t' ht => not_expired_prefix (hx t' ht)) hp
    have g := solo_G _ hp
    have s := solo_S _ hp
    have al := cs.prefix.alone g
    obtain ⟨hu, hc⟩ := other_uuid cs
    by_cases htk : ∃ now d, x = .tick now d
    · obtain ⟨now', d, rfl⟩ := htk
      have hd : u ∉ due (solo (a ++ .call now u ctx data t :: b)).1.timeouts d := by
        rw [mem_due, p.tmo]
        rintro ⟨e, he, hle⟩
        cases t with
        | none => cases he
        | some t' =>
          simp at he
          refine hx t' rfl ⟨⟨.tick now' d, by simp, rfl⟩, ?_⟩
          rw [elapsed_snoc]
          simp only [he, durOf] at hle ⊢
          omega
      obtain ⟨h1, h2⟩ := same_of_tick al hd hb
      refine p.other h1 (by rw [answers_snoc]; simp [answerTo]) ?_
      rw [h2, mine_rest, p.tmo, elapsed_snoc]
      cases t with
      | none => rfl
      | some t' =>
        have : ¬ (t' - (elapsed b : Int) - d ≤ 0) := fun hle => hx t' rfl ⟨⟨.tick now' d, by simp, rfl⟩, by rw [elapsed_snoc]; simp only [durOf]; omega⟩
        simp only [Option.map_some, Option.toList_some, List.map_cons, List.map_nil, shorten, durOf]
        rw [List.filter_cons_of_pos (by simpa using this), List.filter_nil, show t' - (elapsed b : Int) - (d : Int) = t' - ((elapsed b + d : Nat) : Int) by omega]
    · exact P1_step p g s al hs (g.hnd (mid_handler cs.prefix)) hu hc (fun n d e => htk ⟨n, d, e⟩) hb

theorem P2_run {h : List In} {rs : List Result} (b : List In) (p : P2 u ctx rs (solo h)) (ha : ∀ b', ∀ r, G (h ++ b') r → b' <+: b → Alone u ctx r.1) (hs : Serial (h ++ b))
    (hu : u ∉ uuids b) (hc : ctx ∉ ctxs b) (hb : (solo (h ++ b)).1.ub = false) : P2 u ctx rs (solo (h ++ b)) := by
  have key : ∀ b', b' <+: b → P2 u ctx rs (solo (h ++ b')) := by
    intro b'
    refine snoc_induction (P := fun b' => b' <+: b → P2 u ctx rs (solo (h ++ b'))) (fun _ => by simpa using p) (fun l x ih hpre => ?_) b'
    have hl : l <+: b := (List.prefix_append l [x]).trans hpre
    obtain ⟨tail, ht⟩ := hpre
    have hb' : (solo (h ++ (l ++ [x]))).1.ub = false := by
      rw [← ht, ← List.append_assoc] at hb
      unfold solo at hb ⊢
      rw [List.foldl_append] at hb
      exact foldl_ub_prefix hb
    rw [← List.append_assoc] at hb' ⊢
    rw [solo_snoc] at hb' ⊢
    have hs' : Serial (h ++ l ++ [x]) := by
      rw [← ht, ← List.append_assoc, ← List.append_assoc] at hs
      exact serial_prefix hs
    refine P2_step (ih hl) (solo_S _ (ub_prefix hb')) (ha l _ (solo_G _ (ub_prefix hb')) hl) hs' ?_ ?_ hb'
    · intro e
      refine hu (List.mem_filterMap.2 ⟨x, ?_, e⟩)
      rw [← ht]; simp
    · intro e
      refine hc (List.mem_filterMap.2 ⟨x, ?_, e⟩)
      rw [← ht]; simp
  exact key b (List.prefix_refl b)

end

end SilKit.Rpc
