import Verif.Lemmas.Metrics
import Verif.Lemmas.MetricsJson
/-!
# C60, C61: metrics

C60: every change of a metric is reported to the sinks by the next submission, with the value and time of the last change, and collectors
get the reports of others once per remote sink, in order. C61: the lines of the JSON file sink.
-/
namespace SilKit.Props
open SilKit SilKit.Metrics SilKit.Metrics.Spec
open SilKit.Logging (Text)
open SilKit.Logging.Spec (Plain)

/-- For the examples: a counter and a list. -/
def metricOps : List Metrics.Op :=
  [.get [['c']] .counter, .get [['l'], ['x']] .stringList, .update [['c']] (.add 2) 11, .submit 12, .update [['c']] (.add 3) 13,
   .update [['l'], ['x']] (.append ['a']) 14, .update [['c']] (.add 4) 15]

/-! ## Reports -/

/-- **C60.** A submission reports exactly the metrics that were changed after the previous submission, each once, with its present value
and the time of its last change. -/
theorem C60_message_exact (t0 : Nat) (ops : List Metrics.Op) (t : Nat) :
    ∃ d, (Manager.run { lastSubmit := t0 } (ops ++ [.submit t])).2.getLast? = some d ∧ (d.map Data.name).Nodup ∧
      ∀ x, x ∈ d ↔ ∃ v ts, tracked x.name ops = some (v, some ts) ∧ lastSubmission t0 ops < ts ∧ x.timestamp = ts ∧ x.value = v := by
  have h := inv_run t0 ops
  refine ⟨(Manager.submit (Manager.run { lastSubmit := t0 } ops).1 t).2, ?_, message_nodup h t, mem_message h t⟩
  rw [run_append]
  simp [Manager.run, Manager.step]

/-- The second submission reports both metrics. -/
example : (Manager.run { lastSubmit := 10 } (metricOps ++ [.submit 16])).2.getLast? =
    some [⟨15, ['c'], .counter 9⟩, ⟨14, ['l', '/', 'x'], .strings [['a']]⟩] := by decide +kernel

/-- **C60.** If the clock goes on, then after every submission the last report on each metric that was ever changed has its present
value. -/
theorem C60_up_to_date {t0 : Nat} {ops : List Metrics.Op} {t : Nat} (hc : Clock t0 (ops ++ [.submit t])) {name : Text} {v : Value} {ts : Nat}
    (h : tracked name ops = some (v, some ts)) :
    (reportsOn name (Manager.run { lastSubmit := t0 } (ops ++ [.submit t])).2).getLast? = some { timestamp := ts, name := name, value := v } := by
  have r := rep_run hc
  have ht : tracked name (ops ++ [.submit t]) = some (v, some ts) := by rw [tracked_append, track_submit]; exact h
  refine r.done name v ts ht ?_
  have h1 := (rep_run (clock_append.mp hc).1).time name v ts h
  have h2 : lastSubmission t0 (ops ++ [.submit t]) = t := by rw [lastSubmission_append]; rfl
  rw [h2]
  have h3 := (clock_append.mp hc).2.1
  omega

/-- **C60.** What was never changed is never reported. -/
theorem C60_only_changes {t0 : Nat} {ops : List Metrics.Op} (hc : Clock t0 ops) {name : Text} (h : ∀ v ts, tracked name ops ≠ some (v, some ts)) :
    reportsOn name (Manager.run { lastSubmit := t0 } ops).2 = [] := (rep_run hc).never name h

example : Clock 10 (metricOps ++ [.submit 16]) ∧ tracked ['c'] metricOps = some (.counter 9, some 15) ∧
    ∀ v ts, tracked ['n'] metricOps ≠ some (v, some ts) := by
  refine ⟨by simp [metricOps, Clock], by decide +kernel, ?_⟩
  have : tracked ['n'] metricOps = none := by decide +kernel
  simp [this]

/-- **C60.** A metric is requested with another kind than the one of its first request: exactly then the request fails, and nothing
changes. -/
theorem C60_kind_conflict (t0 : Nat) (ops : List Metrics.Op) (name : Text) (k : Metrics.Kind) :
    ((Manager.run { lastSubmit := t0 } ops).1.get name k = none ↔ ∃ v t, tracked name ops = some (v, t) ∧ v.kind ≠ k) ∧
    ((∃ v t, tracked name ops = some (v, t)) → ∀ m, (Manager.run { lastSubmit := t0 } ops).1.get name k = some m →
      m = (Manager.run { lastSubmit := t0 } ops).1) := by
  have h := (inv_run t0 ops).find name
  generalize (Manager.run { lastSubmit := t0 } ops).1 = m at h
  unfold Manager.get
  cases hq : tracked name ops with
  | none => rw [hq] at h; rw [h]; simp
  | some y =>
    obtain ⟨v, t⟩ := y
    rw [hq] at h
    rw [h]
    simp only [Option.map_some]
    by_cases hk : v.kind = k
    · rw [if_pos hk]
      refine ⟨⟨nofun, ?_⟩, fun _ m' hm => (Option.some.inj hm).symm⟩
      rintro ⟨v', t', he, hne⟩
      cases he; exact absurd hk hne
    · rw [if_neg hk]
      exact ⟨⟨fun _ => ⟨v, t, rfl, hk⟩, fun _ => rfl⟩, fun _ _ hm => nomatch hm⟩

/-! ## Values -/

/-- **C60.** A counter is the value it was set to plus all that was added since, modulo `2^64`. -/
theorem C60_counter (v : Nat) (deltas : List Nat) (before : Value) (hb : before.kind = .counter) :
    (Update.set v :: deltas.map .add).foldl Value.apply before = .counter ((v + deltas.sum) % 2 ^ 64) := by
  cases before with
  | counter n =>
    rw [List.foldl_cons]
    show List.foldl _ (Value.counter (v % 2 ^ 64)) _ = _
    have : ∀ (ds : List Nat) (k : Nat), (ds.map Update.add).foldl Value.apply (.counter (k % 2 ^ 64)) = .counter ((k + ds.sum) % 2 ^ 64) := by
      intro ds
      induction ds with
      | nil => intro k; simp
      | cons d ds ih =>
        intro k
        rw [List.map_cons, List.foldl_cons]
        show List.foldl _ (Value.counter ((k % 2 ^ 64 + d) % 2 ^ 64)) _ = _
        rw [Nat.mod_add_mod, ih (k + d), List.sum_cons, Nat.add_assoc]
    exact this deltas v
  | statistic _ => cases hb
  | strings _ => cases hb
  | «attribute» _ => cases hb

/-- **C60.** A list consists of the texts that were added since it was cleared, in order; an attribute is the last text. -/
theorem C60_texts (ts : List Text) (before : List Text) (t b : Text) :
    (Update.clear :: ts.map .append).foldl Value.apply (.strings before) = .strings ts ∧
    ((ts.map Update.assign) ++ [Update.assign t]).foldl Value.apply (.attribute b) = .attribute t := by
  constructor
  · rw [List.foldl_cons]
    show List.foldl _ (Value.strings []) _ = _
    have : ∀ (l acc : List Text), (l.map Update.append).foldl Value.apply (.strings acc) = .strings (acc ++ l) := by
      intro l
      induction l with
      | nil => intro acc; simp
      | cons x l ih => intro acc; rw [List.map_cons, List.foldl_cons]; exact (ih (acc ++ [x])).trans (by simp)
    simpa using this ts []
  · rw [List.foldl_append]
    have : ∀ (l : List Text) (b : Text), ∃ b', (l.map Update.assign).foldl Value.apply (.attribute b) = .attribute b' := by
      intro l
      induction l with
      | nil => intro b; exact ⟨b, rfl⟩
      | cons x l ih => intro b; rw [List.map_cons, List.foldl_cons]; exact ih x
    obtain ⟨b', hb⟩ := this ts b
    rw [hb]; rfl

/-- **C60.** The minimum and the maximum of a statistic are those of the values; the variance is not negative; the mean lies between
the smallest and the largest of the values and 0. -/
theorem C60_statistic (v : Rat) (vs : List Rat) :
    let s := (v :: vs).foldl Stat.take {}
    (∃ m, s.minimum = some m ∧ m ∈ v :: vs ∧ ∀ x ∈ v :: vs, m ≤ x) ∧ (∃ m, s.maximum = some m ∧ m ∈ v :: vs ∧ ∀ x ∈ v :: vs, x ≤ m) ∧
      0 ≤ s.variance ∧ ∀ a b : Rat, a ≤ 0 → 0 ≤ b → (∀ x ∈ v :: vs, a ≤ x ∧ x ≤ b) → a ≤ s.mean ∧ s.mean ≤ b := by
  have h0 : (Stat.take {} v).minimum = some v := rfl
  have h1 : (Stat.take {} v).maximum = some v := rfl
  refine ⟨?_, ?_, takes_variance (vs := v :: vs) (s := {}) Rat.le_refl, fun a b ha hb h => takes_mean (s := {}) ha hb h⟩
  · obtain ⟨m, h2, h3, h4, h5⟩ := takes_min (vs := vs) h0
    refine ⟨m, h2, ?_, ?_⟩
    · rcases h3 with rfl | h3
      · exact List.mem_cons_self
      · exact List.mem_cons_of_mem _ h3
    · intro x hx
      rcases List.mem_cons.mp hx with rfl | hx
      · exact h4
      · exact h5 x hx
  · obtain ⟨m, h2, h3, h4, h5⟩ := takes_max (vs := vs) h1
    refine ⟨m, h2, ?_, ?_⟩
    · rcases h3 with rfl | h3
      · exact List.mem_cons_self
      · exact List.mem_cons_of_mem _ h3
    · intro x hx
      rcases List.mem_cons.mp hx with rfl | hx
      · exact h4
      · exact h5 x hx

/-- **C60.** Different names are different metrics, if no part of a name contains a slash. -/
theorem C60_names_distinct_partial {a b : List Text} (ha : a ≠ []) (hb : b ≠ []) (hsa : ∀ s ∈ a, '/' ∉ s) (hsb : ∀ s ∈ b, '/' ∉ s) :
    joinName a = joinName b ↔ a = b := ⟨joinName_inj ha hb hsa hsb, fun h => by rw [h]⟩

/-! ## Distribution -/

/-- **C60.** However early data come, the sinks get all data of every origin, in order; before the sinks exist, nothing; data that
come back from the participant itself are ignored. -/
theorem C60_sinks_get_all (self : Text) (ops : List ProcOp) (origin : Text) :
    ((∃ x ∈ ops, x = .setSinks) → dataOf origin (Processor.run self {} ops).2 = dataOf origin (handed self ops)) ∧
    ((∀ x ∈ ops, x ≠ .setSinks) → (Processor.run self {} ops).2 = []) := by
  have := waiting_run self ops [] (by simp) origin
  exact ⟨fun h => by simpa [dataOf] using this.1 h, this.2⟩

/-- Data before and after the sinks exist. -/
example : let d (n : Nat) : List Data := [⟨n, ['c'], .counter n⟩]
    (Processor.run ['A'] {} [.process ['A'] (d 1), .received ['B'] (d 2), .process ['A'] (d 3), .setSinks, .received ['A'] (d 1), .received ['B'] (d 4)]).2 =
      [(['A'], d 1 ++ d 3), (['B'], d 2), (['B'], d 4)] := by decide +kernel

/-- **C60.** The files of a collector contain, from every other participant, each submitted message once per remote sink of that
participant, in order, but for those that are still on the way; and from itself each of its messages once. -/
theorem C60_collected {cfg : Nat → Metrics.Config} {nm : Nat → Text} (hnm : ∀ p q, nm p = nm q → p = q) (ops : List Metrics.NetOp) (p q : Nat)
    (hq : 0 < (cfg q).files) :
    (filed (Metrics.Net.run cfg nm {} ops) q (nm q) = submissions q ops) ∧
    (p ≠ q → (cfg q).collect = true → filed (Metrics.Net.run cfg nm {} ops) q (nm p) ++ (Metrics.Net.run cfg nm {} ops).link p q =
      (submissions p ops).flatMap (List.replicate (cfg p).remotes)) ∧
    (p ≠ q → (cfg q).collect = false → filed (Metrics.Net.run cfg nm {} ops) q (nm p) = []) := by
  have h := netInv_run (cfg := cfg) hnm ops
  exact ⟨h.own q hq, fun hpq hc => h.others p q (fun e => hpq (hnm _ _ e)) hq hc, fun hpq hc => h.alien p q (fun e => hpq (hnm _ _ e)) hc⟩

/-- **C60.** Reports are not passed on: delivering a message never puts a message on any link. -/
theorem C60_no_loops {cfg : Nat → Metrics.Config} {nm : Nat → Text} (n : Metrics.Net) (p q a b : Nat) :
    ((n.step cfg nm (.deliver p q)).link a b).length ≤ (n.link a b).length := by
  simp only [Metrics.Net.step]
  cases hl : n.link p q with
  | nil => exact Nat.le_refl _
  | cons d rest =>
    have base : (if a = p ∧ b = q then rest else n.link a b).length ≤ (n.link a b).length := by
      by_cases hab : a = p ∧ b = q
      · rw [if_pos hab, hab.1, hab.2, hl]; simp
      · rw [if_neg hab]; exact Nat.le_refl _
    simp only []
    by_cases hpq : nm p = nm q
    · rw [if_pos hpq]; exact base
    · rw [if_neg hpq, link_apply, if_neg (fun h => hpq h.2.2), List.append_nil]; exact base

/-- Two participants with a remote sink, which also collect: the report of each reaches the other once. -/
example : let cfg : Nat → Metrics.Config := fun _ => ⟨1, 1, true⟩
    let d : List Data := [⟨1, ['c'], .counter 1⟩]
    let n := Metrics.Net.run cfg (fun p => [Char.ofNat (65 + p)]) {} [.submit 0 d, .deliver 0 1, .deliver 0 0, .deliver 1 0, .deliver 0 1]
    n.files 1 = [(['A'], d)] ∧ n.files 0 = [(['A'], d)] ∧ n.link 0 1 = [] := by decide +kernel

/-! ## Lines of the JSON file sink -/

/-- **C61.** Every line is a JSON object with the time stamp, the participant, the name of the metric, its kind and its value in the
documented encoding; texts come back as they were. (Names and attributes: control characters other than backspace, tab, line feed, form
feed and carriage return excepted; lists: all control characters excepted.) -/
theorem C61_line_partial {num : Stat → Text} (hnum : WritesNumbers num) {origin : Text} {d : Data} (ho : Plain origin) (hn : Plain d.name)
    (hp : ∀ t, d.value = .attribute t → Plain t) (hl : ∀ l, d.value = .strings l → ∀ t ∈ l, NoControl t) :
    ∃ j, Encodes num d.value j ∧ Line (jsonLine num origin d) (lineObject d origin d.value.kind.text j) := line_reads hnum ho hn hp hl

/-- **C61.** A line has only one meaning. -/
theorem C61_meaning_unique {t : Text} {v w : Metrics.Spec.Json} (hv : Line t v) (hw : Line t w) : v = w := (starts_unique hv hw).1

/-- **C61.** The names of the kinds, which are different. -/
theorem C61_kinds : Metrics.Kind.text .counter = "COUNTER".toList ∧ Metrics.Kind.text .statistic = "STATISTIC".toList ∧
    Metrics.Kind.text .stringList = "STRING_LIST".toList ∧ Metrics.Kind.text .attribute = "ATTRIBUTE".toList := ⟨rfl, rfl, rfl, rfl⟩

/-- A writer of numbers, for the examples. -/
def zeros (_ : Stat) : Text := "[0,0,-1.5e3,0]".toList

example : WritesNumbers zeros := by
  intro s
  have z : Number ['0'] := number_toDigits 0
  refine ⟨['0'], ['0'], "-1.5e3".toList, ['0'], by unfold zeros; decide, z, z, ?_, z⟩
  exact ⟨['-'], ['1'], ['.', '5'], ['e', '3'], by decide, Or.inr rfl, ⟨by decide, by decide⟩, by decide,
    Or.inr ⟨['5'], rfl, ⟨by decide, by decide⟩⟩, Or.inr ⟨'e', [], ['3'], rfl, Or.inl rfl, Or.inl rfl, ⟨by decide, by decide⟩⟩⟩

example : jsonLine zeros ['P', '"'] ⟨42, ['l'], .strings [['a', '"'], ['b']]⟩ =
    "{\"ts\":42,\"pn\":\"P\\\"\",\"mn\":\"l\",\"mk\":\"STRING_LIST\",\"mv\":[\"a\\\"\",\"b\"]}\n".toList := by decide +kernel

/-! ## Deviations -/

/-- **C60, deviation.** Changes of metrics and submissions are not synchronized. A change that falls between the moment at which the
submission looks at the metric and its end is never reported, nor is one whose time was read before the submission and whose value was
written after it: whatever else happens, as long as the metric is not changed again. -/
theorem C60_changes_get_lost : ∃ (m : Manager) (before : List Fine), m.find ['c'] = some { value := .counter 0 } ∧
    ((m.fineRun before).1.find ['c']).map (·.value) = some (.counter 7) ∧ (m.fineRun before).2.flatten = [] ∧
    ∀ after : List Fine, (∀ o ∈ after, ∀ t, o ≠ .stamp ['c'] t) → (∀ t, Fine.finish t ∈ after → 4 ≤ t) →
      ∀ d ∈ ((m.fineRun before).1.fineRun after).2.flatten, d.name ≠ ['c'] := by
  refine ⟨{ metrics := [(['c'], { value := .counter 0 })], lastSubmit := 1 },
    [.read ['c'], .stamp ['c'] 3, .write ['c'] (.add 7), .finish 4], rfl, by decide +kernel, by decide +kernel, ?_⟩
  intro after hs hf
  refine lost_forever ['c'] 4 after hs hf _ ?_ ?_ ?_
  · intro x hx
    have : (Manager.fineRun { metrics := [(['c'], { value := .counter 0 })], lastSubmit := 1 }
        [.read ['c'], .stamp ['c'] 3, .write ['c'] (.add 7), .finish 4]).1.find ['c'] = some ⟨3, .counter 7⟩ := by decide +kernel
    rw [this] at hx; cases hx; decide
  · exact Nat.le_refl 4
  · intro d hd; cases hd

/-- **C60, deviation.** The second order: the report has the new time and the old value, and the new value is not reported. -/
theorem C60_stale_value : ∃ (m : Manager) (before : List Fine), ((m.fineRun before).1.find ['c']).map (·.value) = some (.counter 7) ∧
    (m.fineRun before).2.flatten = [⟨3, ['c'], .counter 0⟩] ∧
    ∀ after : List Fine, (∀ o ∈ after, ∀ t, o ≠ .stamp ['c'] t) → (∀ t, Fine.finish t ∈ after → 4 ≤ t) →
      ∀ d ∈ ((m.fineRun before).1.fineRun after).2.flatten, d.name ≠ ['c'] := by
  refine ⟨{ metrics := [(['c'], { value := .counter 0 })], lastSubmit := 1 },
    [.stamp ['c'] 3, .read ['c'], .finish 4, .write ['c'] (.add 7)], by decide +kernel, by decide +kernel, ?_⟩
  intro after hs hf
  refine lost_forever ['c'] 4 after hs hf _ ?_ ?_ ?_
  · intro x hx
    have : (Manager.fineRun { metrics := [(['c'], { value := .counter 0 })], lastSubmit := 1 }
        [.stamp ['c'] 3, .read ['c'], .finish 4, .write ['c'] (.add 7)]).1.find ['c'] = some ⟨3, .counter 7⟩ := by decide +kernel
    rw [this] at hx; cases hx; decide
  · exact Nat.le_refl 4
  · intro d hd; cases hd

/-- **C60, deviation.** If the clock returns the same value twice, as it may, a change right after a submission is not reported. -/
theorem C60_same_tick : (Manager.run { lastSubmit := 10 }
    [.get [['c']] .counter, .submit 11, .update [['c']] (.add 1) 11, .submit 12]).2.flatten = [] := by decide +kernel

/-- **C60, deviation.** Names with slashes can coincide: here the counters of the connections to participant `p/q` in simulation `s` and
to participant `q` in simulation `s/p`, which then count together. -/
theorem C60_names_coincide : ∃ a b : List Text, a ≠ b ∧ joinName a = joinName b ∧
    (Manager.run { lastSubmit := 10 } [.get a .counter, .get b .counter, .update a (.add 1) 11, .update b (.add 1) 12, .submit 13]).2.flatten.map Data.value =
      [.counter 2] :=
  ⟨["Peer".toList, ['s'], "p/q".toList, "tx".toList], ["Peer".toList, "s/p".toList, ['q'], "tx".toList], by decide, by decide, by decide +kernel⟩

/-- **C60, deviation.** The mean of a statistic is not the mean: after one value `v`, it is `v / 2`, below the minimum if `v` is
positive. -/
theorem C60_mean_is_not_the_mean (v : Rat) (hv : 0 < v) : (Stat.take {} v).mean = v / 2 ∧ (Stat.take {} v).minimum = some v ∧
    (Stat.take {} v).mean < v := by
  refine ⟨?_, rfl, ?_⟩
  · simp only [Stat.take]; grind
  · simp only [Stat.take]; grind

/-- **C60, deviation.** With two remote sinks, collectors get everything twice. -/
theorem C60_remote_sinks_duplicate : let cfg : Nat → Metrics.Config := fun p => if p = 0 then ⟨0, 2, false⟩ else ⟨1, 0, true⟩
    let d : List Data := [⟨1, ['c'], .counter 1⟩]
    (Metrics.Net.run cfg (fun p => [Char.ofNat (65 + p)]) {} [.submit 0 d, .deliver 0 1, .deliver 0 1]).files 1 = [(['A'], d), (['A'], d)] := by
  decide +kernel

/-- **C61, deviation.** A list that contains a control character, for instance a line feed, is not written as JSON: the text of the value
is not the start of any JSON value. -/
theorem C61_lists_not_escaped (num : Stat → Text) (l : List Text) (t : Text) (ht : ¬ NoControl t) (rest : Text) (v : Metrics.Spec.Json) (r : Text) :
    ¬ Starts (format num (.strings (t :: l)) ++ rest) v r := by
  have : ∃ x, format num (.strings (t :: l)) ++ rest = '[' :: '"' :: (t.flatMap listEscapeChar ++ x) := by
    cases l with
    | nil => exact ⟨'"' :: ']' :: rest, by simp [format, listItems, listString, SilKit.Logging.quoted]⟩
    | cons t' l => exact ⟨'"' :: ',' :: (listItems (t' :: l) ++ ']' :: rest), by simp [format, listItems, listString, SilKit.Logging.quoted]⟩
  obtain ⟨x, hx⟩ := this
  rw [hx]
  intro h
  have no : ∀ v r, ¬ Starts ('"' :: (t.flatMap listEscapeChar ++ x)) v r := by
    intro v r h
    obtain ⟨t', h1, _⟩ := starts_str h
    rw [pString_listEscape_control ht] at h1; cases h1
  rcases starts_arr h with ⟨h1, _⟩ | ⟨l, h1, _⟩
  · exact absurd (List.cons.inj h1).1 (by decide)
  · cases h1 with
    | last h2 => exact no _ _ h2
    | more h2 _ => exact no _ _ h2

example : ¬ NoControl ['a', '\n'] := by intro h; exact absurd (h '\n' (by simp)) (by decide)

end SilKit.Props
