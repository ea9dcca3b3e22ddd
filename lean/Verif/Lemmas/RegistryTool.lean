import Verif.Spec.RegistryTool
import Verif.Lemmas.ConfigFiles
/-! # Lemmas about one `sil-kit-registry`: everything it does is in order -/
namespace SilKit.RegistryTool
open SilKit SilKit.ConfigText SilKit.RegistryTool.Spec

/-- What matters of a process and its own files. -/
structure V where
  tmp : Option Text
  status : Option Text
  listening : Option Text := none
  placed : Bool := false
  dash : Dash := .unused
  catching : Bool := false
  registered : Bool := false
  waited : Bool := false
  code : Option Int := none

variable (o : CommandLine) (e : Luck) (before : Option Text)

def V.act (v : V) : Act → V
  | .truncate p => if p = tmpPath o e then { v with tmp := some [] } else if p = o.statusFile then { v with status := some [] } else v
  | .append p t =>
    if p = tmpPath o e then { v with tmp := v.tmp.map (· ++ t) } else if p = o.statusFile then { v with status := v.status.map (· ++ t) } else v
  | .rename _ _ => { v with tmp := none, placed := true }
  | .remove p => if p = o.statusFile then { v with status := none } else v
  | .attach => { v with dash := .alive }
  | .listen u => { v with listening := some u }
  | .unlisten => { v with listening := none }
  | .dropDashboard => { v with dash := .gone }
  | .catching => { v with catching := true }
  | .registered => { v with registered := true }
  | .wait => { v with waited := true }
  | .exit c => { v with code := some c }

def V.acts (v : V) (l : List Act) : V := l.foldl (V.act o e) v

def Opens : Prop := o.statusFile ≠ [] ∧ e.starting.opens = true ∧ e.running.opens = true ∧ e.stopped.opens = true

def StatusOk (v : V) : Prop :=
  (v.status = before ∧ v.listening = none)
  ∨ (v.status = none ∧ v.listening = none)
  ∨ v.status = some []
  ∨ (∃ t, v.status = some t ∧ t <+: "starting".toList ∧ v.waited = false)
  ∨ (∃ t, v.status = some t ∧ t <+: "running".toList ∧ (v.listening.isSome ∨ v.waited) ∧ (o.generate ≠ [] → v.placed))
  ∨ (∃ t, v.status = some t ∧ t <+: "stopped".toList ∧ v.listening = none)

def Uses : Prop := ∃ f, (settings o f).dashboard.isSome ∧ e.dashboard

structure Ok (v : V) : Prop where
  status : Opens o e → StatusOk o before v
  gone : v.dash = .gone → v.listening.isSome → v.waited
  uses : v.dash ≠ .unused → Uses o e
  waited : v.waited → v.registered
  placed : v.placed → v.listening.isSome ∨ v.waited
  code : ∀ c, v.code = some c → v.listening = none ∧ (c = 0 → o.help ∨ o.version ∨ v.waited) ∧ (c = 0 ∨ c = -1 ∨ c = -2 ∨ c = -3)
    ∧ (v.registered → c = 0 ∧ (e.removes → o.statusFile ≠ [] → v.status = none)) ∧ CodeTells o e c

def ActOk (v : V) : Act → Prop
  | .truncate p => (p = tmpPath o e ∧ o.generate ≠ []) ∨ (o.statusFile ≠ [] ∧ p = o.statusFile)
  | .append p _ => (p = tmpPath o e ∧ o.generate ≠ []) ∨ (o.statusFile ≠ [] ∧ p = o.statusFile)
  | .rename a b => a = tmpPath o e ∧ b = o.generate ∧ o.generate ≠ [] ∧ ∃ uri t, v.listening = some uri ∧ v.tmp = some t ∧ t <+: generatedText o e uri
      ∧ ((generatedText o e uri).length ≤ e.generated.pieces.sum → t = generatedText o e uri)
  | .remove p => o.statusFile ≠ [] ∧ p = o.statusFile
  | .exit c => v.listening = none ∧ (v.registered → c = 0 ∧ v.waited) ∧ (c = 0 → o.help ∨ o.version ∨ v.waited) ∧ (c = 0 ∨ c = -1 ∨ c = -2 ∨ c = -3)
      ∧ (v.registered → e.removes → o.statusFile ≠ [] → v.status = none) ∧ v.code = none
  | .wait => v.registered
  | _ => True

def Pre : V → List Act → Prop
  | _, [] => True
  | v, a :: l => Ok o e before v ∧ ActOk o e v a ∧ Pre (v.act o e a) l

/-- `l` can be done from `v`, and leads to `v'`. -/
def Seg (v : V) (l : List Act) (v' : V) : Prop := Pre o e before v l ∧ v.acts o e l = v' ∧ Ok o e before v'

variable {o e before}

theorem Pre.append {v : V} {a b : List Act} (ha : Pre o e before v a) (hb : Pre o e before (v.acts o e a) b) : Pre o e before v (a ++ b) := by
  induction a generalizing v with
  | nil => exact hb
  | cons x a ih => exact ⟨ha.1, ha.2.1, ih ha.2.2 hb⟩

theorem Seg.append {v v' v'' : V} {a b : List Act} (ha : Seg o e before v a v') (hb : Seg o e before v' b v'') : Seg o e before v (a ++ b) v'' := by
  obtain ⟨h1, h2, h3⟩ := ha
  obtain ⟨h4, h5, h6⟩ := hb
  subst h2
  refine ⟨h1.append h4, ?_, h6⟩
  rw [← h5]; simp [V.acts]

theorem Seg.nil {v : V} (h : Ok o e before v) : Seg o e before v [] v := ⟨trivial, rfl, h⟩

theorem Seg.one {v : V} {a : Act} (h : Ok o e before v) (ha : ActOk o e v a) (h' : Ok o e before (v.act o e a)) : Seg o e before v [a] (v.act o e a) :=
  ⟨⟨h, ha, trivial⟩, rfl, h'⟩

theorem cut_flatten (ns : List Nat) (t : Text) : (cut ns t).flatten = t.take ns.sum := by
  induction ns generalizing t with
  | nil => simp [cut]
  | cons n ns ih => simp [cut, ih, List.take_add]

theorem tmp_ne_generate : tmpPath o e ≠ o.generate := by
  intro h
  have := congrArg List.length h
  simp [tmpPath] at this

/-- Writing the temporary file. -/
theorem seg_tmp (v : V) (hv : Ok o e before v) (hg : o.generate ≠ []) (t : Text) (w : Writing) (hw : w.opens = true) :
    Seg o e before v (write (tmpPath o e) t w) { v with tmp := some (t.take w.pieces.sum) } := by
  have ok : ∀ x, Ok o e before { v with tmp := x } := fun x => ⟨hv.status, hv.gone, hv.uses, hv.waited, hv.placed, hv.code⟩
  have key : ∀ (ns : List Nat) (acc r : Text), Seg o e before { v with tmp := some acc } ((cut ns r).map (.append (tmpPath o e)))
      { v with tmp := some (acc ++ (cut ns r).flatten) } := by
    intro ns
    induction ns with
    | nil => intro acc r; simpa [cut] using Seg.nil (ok (some acc))
    | cons n ns ih =>
      intro acc r
      have h1 : Seg o e before { v with tmp := some acc } [.append (tmpPath o e) (r.take n)] { v with tmp := some (acc ++ r.take n) } := by
        have := Seg.one (ok (some acc)) (a := .append (tmpPath o e) (r.take n)) (Or.inl ⟨rfl, hg⟩) (by simpa [V.act] using ok _)
        simpa [V.act] using this
      have := h1.append (ih (acc ++ r.take n) (r.drop n))
      simpa [cut] using this
  have h0 : Seg o e before v [.truncate (tmpPath o e)] { v with tmp := some [] } := by
    have := Seg.one hv (a := .truncate (tmpPath o e)) (Or.inl ⟨rfl, hg⟩) (by simpa [V.act] using ok _)
    simpa [V.act] using this
  have := h0.append (key w.pieces [] t)
  simpa [write, hw, cut_flatten] using this

/-- Writing the status file. -/
theorem seg_status (v : V) (hv : Ok o e before v) (hne : tmpPath o e ≠ o.statusFile) (hc : v.code = none) (t : Text) (w : Writing)
    (ht : Opens o e → ∀ x, x <+: t → StatusOk o before { v with status := some x }) :
    Seg o e before v (writeStatus o t w) (if o.statusFile = [] ∨ w.opens = false then v else { v with status := some (t.take w.pieces.sum) }) := by
  by_cases hs : o.statusFile = []
  · simpa [writeStatus, hs] using Seg.nil hv
  by_cases hw : w.opens = false
  · simpa [writeStatus, write, hs, hw] using Seg.nil hv
  have hne' : o.statusFile ≠ tmpPath o e := fun h => hne h.symm
  have ok : ∀ x, x <+: t → Ok o e before { v with status := some x } := fun x hx => ⟨fun h => ht h x hx, hv.gone, hv.uses, hv.waited, hv.placed, fun c h => absurd (hc.symm.trans h) (by simp)⟩
  have key : ∀ (ns : List Nat) (acc r : Text), acc ++ r = t → Seg o e before { v with status := some acc } ((cut ns r).map (.append o.statusFile))
      { v with status := some (acc ++ (cut ns r).flatten) } := by
    intro ns
    induction ns with
    | nil => intro acc r h; simpa [cut] using Seg.nil (ok acc ⟨r, h⟩)
    | cons n ns ih =>
      intro acc r h
      have e1 : (acc ++ r.take n) ++ r.drop n = t := by rw [List.append_assoc, List.take_append_drop, h]
      have h1 : Seg o e before { v with status := some acc } [.append o.statusFile (r.take n)] { v with status := some (acc ++ r.take n) } := by
        have := Seg.one (ok acc ⟨r, h⟩) (a := .append o.statusFile (r.take n)) (Or.inr ⟨hs, rfl⟩) (by simpa [V.act, hne'] using ok _ ⟨_, e1⟩)
        simpa [V.act, hne'] using this
      have := h1.append (ih (acc ++ r.take n) (r.drop n) e1)
      simpa [cut] using this
  have h0 : Seg o e before v [.truncate o.statusFile] { v with status := some [] } := by
    have := Seg.one hv (a := .truncate o.statusFile) (Or.inr ⟨hs, rfl⟩) (by simpa [V.act, hne'] using ok [] (List.nil_prefix))
    simpa [V.act, hne'] using this
  have := h0.append (key w.pieces [] t rfl)
  simpa [writeStatus, write, hw, hs, cut_flatten] using this

/-- Whatever happened inside, the end of the process is in order. -/
theorem seg_finish (v : V) (hv : Ok o e before v) (hne : tmpPath o e ≠ o.statusFile) (c : Int) (hl : v.listening = none)
    (h1 : v.registered → c = 0 ∧ v.waited) (h2 : c = 0 → o.help ∨ o.version ∨ v.waited) (h3 : c = 0 ∨ c = -1 ∨ c = -2 ∨ c = -3) (hc : v.code = none)
    (hwhy : CodeTells o e c) :
    ∃ v', Seg o e before v (writeStatus o "stopped".toList e.stopped ++ removeStatus o e ++ [.exit c]) v' ∧ v'.code = some c := by
  have hne' : o.statusFile ≠ tmpPath o e := fun h => hne h.symm
  have s1 := seg_status v hv hne hc "stopped".toList e.stopped (fun _ x hx => by right; right; right; right; right; exact ⟨x, rfl, hx, hl⟩)
  generalize hv1 : (if o.statusFile = [] ∨ e.stopped.opens = false then v else { v with status := some ("stopped".toList.take e.stopped.pieces.sum) }) = v1 at s1
  have k1 : v1.listening = none ∧ v1.registered = v.registered ∧ v1.waited = v.waited ∧ v1.code = none := by
    subst hv1; split <;> simp [hl, hc]
  have ok1 := s1.2.2
  have s2 : Seg o e before v1 (removeStatus o e) (if o.statusFile = [] ∨ e.removes = false then v1 else { v1 with status := none }) := by
    unfold removeStatus
    by_cases hs : o.statusFile = []
    · simpa [hs] using Seg.nil ok1
    by_cases hr : e.removes
    · have ok2 : Ok o e before { v1 with status := none } := ⟨fun _ => Or.inr (Or.inl ⟨rfl, k1.1⟩), ok1.gone, ok1.uses, ok1.waited, ok1.placed, fun c h => absurd (k1.2.2.2.symm.trans h) (by simp)⟩
      have := Seg.one ok1 (a := .remove o.statusFile) ⟨hs, rfl⟩ (by simpa [V.act] using ok2)
      simpa [hs, hr, V.act] using this
    · simpa [hs, hr] using Seg.nil ok1
  generalize hv2 : (if o.statusFile = [] ∨ e.removes = false then v1 else { v1 with status := none }) = v2 at s2
  have k2 : v2.listening = none ∧ v2.registered = v.registered ∧ v2.waited = v.waited ∧ v2.code = none ∧ (e.removes → o.statusFile ≠ [] → v2.status = none) := by
    subst hv2
    clear hv1
    split
    · rename_i h
      refine ⟨k1.1, k1.2.1, k1.2.2.1, k1.2.2.2, fun hr hs => ?_⟩
      rcases h with h | h
      · exact absurd h hs
      · rw [h] at hr; cases hr
    · exact ⟨k1.1, k1.2.1, k1.2.2.1, k1.2.2.2, fun _ _ => rfl⟩
  have ok2 := s2.2.2
  have ok3 : Ok o e before (v2.act o e (.exit c)) := ⟨ok2.status, ok2.gone, ok2.uses, ok2.waited, ok2.placed, fun c' h => by
    have hcc : c = c' := by simpa [V.act] using h
    subst hcc
    exact ⟨k2.1, fun h0 => by have := h2 h0; rw [← k2.2.2.1] at this; exact this, h3,
      fun hr => ⟨(h1 (by rw [← k2.2.1]; exact hr)).1, k2.2.2.2.2⟩, hwhy⟩⟩
  have s3 := Seg.one ok2 (a := .exit c) ⟨k2.1, by rw [k2.2.1, k2.2.2.1]; exact h1, by rw [k2.2.2.1]; exact h2, h3, fun _ => k2.2.2.2.2, k2.2.2.2.1⟩ ok3
  exact ⟨_, (s1.append s2).append s3, rfl⟩

/-- The fields of an `Ok` after an action that does not concern the files. -/
theorem Seg.cons {v : V} {a : Act} {l : List Act} {v' : V} (h : Ok o e before v) (ha : ActOk o e v a) (hl : Seg o e before (v.act o e a) l v') :
    Seg o e before v (a :: l) v' := ⟨⟨h, ha, hl.1⟩, by rw [← hl.2.1]; rfl, hl.2.2⟩

/-- From the status "running" to the destruction of the registry. -/
theorem seg_running (v : V) (hv : Ok o e before v) (hne : tmpPath o e ≠ o.statusFile) (uri : Text) (hl : v.listening = some uri) (dash : Bool)
    (hd : dash = true → Uses o e) (hg : v.dash ≠ .gone) (hp : o.generate ≠ [] → v.placed = true) (hw : v.waited = false) (hc : v.code = none) :
    ∃ v', Seg o e before v (writeStatus o "running".toList e.running ++ [.catching, .registered, .wait] ++ (if dash then [.dropDashboard] else []) ++ [.unlisten]) v'
      ∧ v'.listening = none ∧ v'.registered = true ∧ v'.waited = true ∧ v'.code = none := by
  have s1 := seg_status v hv hne hc "running".toList e.running
    (fun _ x hx => by right; right; right; right; left; exact ⟨x, rfl, hx, Or.inl (by simp [hl]), hp⟩)
  have hst : ∀ (u : V), u = (if o.statusFile = [] ∨ e.running.opens = false then v else { v with status := some ("running".toList.take e.running.pieces.sum) }) →
      u.listening = some uri ∧ u.dash = v.dash ∧ u.waited = false ∧ u.code = none ∧ u.placed = v.placed
        ∧ (Opens o e → ∃ t, u.status = some t ∧ t <+: "running".toList) := by
    intro u hu
    by_cases hx : o.statusFile = [] ∨ e.running.opens = false
    · rw [if_pos hx] at hu; subst hu
      refine ⟨hl, rfl, hw, hc, rfl, fun ho => ?_⟩
      rcases hx with hx | hx
      · exact absurd hx ho.1
      · rw [ho.2.2.1] at hx; cases hx
    · rw [if_neg hx] at hu; subst hu
      exact ⟨hl, rfl, hw, hc, rfl, fun _ => ⟨_, rfl, List.take_prefix _ _⟩⟩
  generalize (if o.statusFile = [] ∨ e.running.opens = false then v else { v with status := some ("running".toList.take e.running.pieces.sum) }) = v1 at s1 hst
  obtain ⟨a1, a2, a3, a4, a5, a6⟩ := hst v1 rfl
  have ok1 := s1.2.2
  have st : ∀ (u : V), u.status = v1.status → u.placed = v1.placed → (u.listening.isSome ∨ u.waited = true) → Opens o e → StatusOk o before u := by
    intro u h1 h2 h3 ho
    obtain ⟨t, ht, hx⟩ := a6 ho
    right; right; right; right; left
    exact ⟨t, by rw [h1, ht], hx, h3, fun h => by rw [h2, a5]; exact hp h⟩
  have mk : ∀ (u : V), u.status = v1.status → u.placed = v1.placed → (u.listening.isSome ∨ u.waited = true) →
      (u.dash = .gone → u.waited = true) → (u.dash ≠ .unused → u.dash = v1.dash ∨ dash = true) → (u.waited → u.registered) → u.code = v1.code → Ok o e before u := by
    intro u h1 h2 h3 h4 h5 h6 h7
    refine ⟨st u h1 h2 h3, fun h _ => h4 h, fun h => ?_, h6, fun _ => h3, fun c h => absurd (((h7.trans a4).symm).trans h) (by simp)⟩
    rcases h5 h with h7 | h7
    · exact ok1.uses (by rw [← h7]; exact h)
    · exact hd h7
  have s2 : Seg o e before v1 [.catching, .registered, .wait] { v1 with catching := true, registered := true, waited := true } := by
    refine Seg.cons ok1 trivial (Seg.cons ?_ trivial (Seg.cons ?_ rfl (Seg.nil ?_)))
    · exact mk _ rfl rfl (Or.inl (by simp [V.act, a1])) (fun h => absurd (by simpa [V.act, a2] using h) hg) (fun _ => Or.inl rfl) (by simp [V.act, a3]) rfl
    · exact mk _ rfl rfl (Or.inl (by simp [V.act, a1])) (fun h => absurd (by simpa [V.act, a2] using h) hg) (fun _ => Or.inl rfl) (by simp [V.act, a3]) rfl
    · exact mk _ rfl rfl (Or.inr rfl) (fun _ => rfl) (fun _ => Or.inl rfl) (fun _ => rfl) rfl
  let v2 : V := { v1 with catching := true, registered := true, waited := true }
  let v3 : V := if dash then { v2 with dash := .gone } else v2
  have s3 : Seg o e before v2 (if dash then [.dropDashboard] else []) v3 := by
    cases dash with
    | true => exact Seg.cons s2.2.2 trivial (Seg.nil (mk _ rfl rfl (Or.inr rfl) (fun _ => rfl) (fun _ => Or.inr rfl) (fun _ => rfl) rfl))
    | false => exact Seg.nil s2.2.2
  have s4 : Seg o e before v3 [.unlisten] { v3 with listening := none } := by
    refine Seg.cons s3.2.2 trivial (Seg.nil ?_)
    refine mk _ ?_ ?_ (Or.inr ?_) (fun _ => ?_) ?_ (fun _ => ?_) ?_
    all_goals (cases dash <;> simp [V.act, v3, v2])
  refine ⟨_, ((s1.append s2).append s3).append s4, rfl, ?_, ?_, ?_⟩
  all_goals (cases dash <;> simp [v3, v2, a4])

theorem seg_after (v : V) (hv : Ok o e before v) (hne : tmpPath o e ≠ o.statusFile) (uri : Text) (hl : v.listening = some uri) (dash : Bool)
    (hd : dash = true → Uses o e) (hg : v.dash ≠ .gone) (hw : v.waited = false) (hr : v.registered = false) (hc : v.code = none) (hpl : v.placed = false)
    (hs : Opens o e → ∃ t, v.status = some t ∧ t <+: "starting".toList) :
    ∃ v', Seg o e before v (afterListening o e dash uri).1 v' ∧ v'.listening = none ∧ v'.code = none
      ∧ ((v'.registered = true ∧ v'.waited = true ∧ (afterListening o e dash uri).2 = 0) ∨ (v'.registered = false ∧ (afterListening o e dash uri).2 = -3)) := by
  by_cases hge : o.generate = []
  · obtain ⟨v', h1, h2, h3, h4, h5⟩ := seg_running v hv hne uri hl dash hd hg (fun h => absurd hge h) hw hc
    exact ⟨v', by simpa [afterListening, hge] using h1, h2, h5, Or.inl ⟨h3, h4, by simp [afterListening, hge]⟩⟩
  have failed : ∀ (u : V), Ok o e before u → u.status = v.status → u.waited = v.waited → u.registered = v.registered → u.code = v.code → u.placed = v.placed →
      ∃ v', Seg o e before u ([.unlisten] ++ (if dash then [.dropDashboard] else [])) v' ∧ v'.listening = none ∧ v'.code = none ∧ v'.registered = false := by
    intro u hu h1 h2 h3 h4 h5
    have st : ∀ (x : V), x.status = u.status → x.waited = u.waited → Opens o e → StatusOk o before x := by
      intro x e1 e2 ho
      obtain ⟨t, ht, hx⟩ := hs ho
      right; right; right; left
      exact ⟨t, by rw [e1, h1, ht], hx, by rw [e2, h2, hw]⟩
    have ok1 : Ok o e before { u with listening := none } := ⟨st _ rfl rfl, (fun _ h => by cases h), hu.uses, hu.waited, (fun h => absurd ((h5.trans hpl).symm.trans h) (by decide)),
      fun c h => absurd (((h4.trans hc).symm).trans h) (by simp)⟩
    have s1 : Seg o e before u [.unlisten] { u with listening := none } := Seg.cons hu trivial (Seg.nil ok1)
    cases dash with
    | false => exact ⟨_, s1.append (Seg.nil ok1), rfl, h4.trans hc, h3.trans hr⟩
    | true =>
      have ok2 : Ok o e before { u with listening := none, dash := .gone } := ⟨st _ rfl rfl, (fun _ h => by cases h), fun _ => hd rfl, hu.waited, ok1.placed, ok1.code⟩
      exact ⟨_, s1.append (Seg.cons ok1 trivial (Seg.nil ok2)), rfl, h4.trans hc, h3.trans hr⟩
  by_cases ho : e.generated.opens = true
  · have s1 := seg_tmp v hv hge (generatedText o e uri) e.generated ho
    by_cases hre : e.renames = true
    · let v1 : V := { v with tmp := some ((generatedText o e uri).take e.generated.pieces.sum) }
      let v2 : V := { v with tmp := none, placed := true }
      have ok2 : Ok o e before v2 := by
        refine ⟨fun h => ?_, hv.gone, hv.uses, hv.waited, fun _ => Or.inl (by simp [v2, hl]), hv.code⟩
        obtain ⟨t, ht, hx⟩ := hs h
        right; right; right; left
        exact ⟨t, ht, hx, hw⟩
      have s2 : Seg o e before v1 [.rename (tmpPath o e) o.generate] v2 :=
        Seg.cons s1.2.2 ⟨rfl, rfl, hge, uri, _, hl, rfl, List.take_prefix _ _, fun h => List.take_of_length_le h⟩ (Seg.nil ok2)
      obtain ⟨v', h1, h2, h3, h4, h5⟩ := seg_running v2 ok2 hne uri hl dash hd hg (fun _ => rfl) hw hc
      refine ⟨v', ?_, h2, h5, Or.inl ⟨h3, h4, by simp [afterListening, hge, ho, hre]⟩⟩
      have := (s1.append s2).append h1
      simpa [afterListening, hge, ho, hre] using this
    · obtain ⟨v', h1, h2, h3, h4⟩ := failed _ s1.2.2 rfl rfl rfl rfl rfl
      refine ⟨v', ?_, h2, h3, Or.inr ⟨h4, by simp [afterListening, hge, ho, hre, codeOf]⟩⟩
      have := s1.append h1
      simpa [afterListening, hge, ho, hre] using this
  · obtain ⟨v', h1, h2, h3, h4⟩ := failed v hv rfl rfl rfl rfl rfl
    refine ⟨v', ?_, h2, h3, Or.inr ⟨h4, by simp [afterListening, hge, ho, codeOf]⟩⟩
    simpa [afterListening, hge, ho, write] using h1

theorem seg_start (v : V) (hv : Ok o e before v) (hne : tmpPath o e ≠ o.statusFile) (f : FileSettings) (hl : v.listening = none)
    (hg : v.dash = .unused) (hw : v.waited = false) (hr : v.registered = false) (hc : v.code = none) (hpl : v.placed = false)
    (hs : Opens o e → ∃ t, v.status = some t ∧ t <+: "starting".toList) :
    ∃ v', Seg o e before v (start o e (settings o f)).1 v' ∧ v'.listening = none ∧ v'.code = none
      ∧ ((v'.registered = true ∧ v'.waited = true ∧ (start o e (settings o f)).2 = 0)
        ∨ (v'.registered = false ∧ ((start o e (settings o f)).2 = -2 ∨ (start o e (settings o f)).2 = -3))) := by
  have cc : ∀ x, codeOf x = -2 ∨ codeOf x = -3 := by intro x; cases x <;> simp [codeOf]
  have st : ∀ (x : V), x.status = v.status → x.waited = v.waited → Opens o e → StatusOk o before x := by
    intro x e1 e2 ho
    obtain ⟨t, ht, hx⟩ := hs ho
    right; right; right; left
    exact ⟨t, by rw [e1, ht], hx, by rw [e2, hw]⟩
  unfold start
  dsimp only
  generalize hda : ((settings o f).dashboard.isSome && e.dashboard) = dash
  have hd : dash = true → Uses o e := by
    intro h; subst h; simp at hda; exact ⟨f, hda⟩
  cases hcr : e.creation with
  | some x => exact ⟨v, Seg.nil hv, hl, hc, Or.inr ⟨hr, cc x⟩⟩
  | none =>
    let v1 : V := if dash then { v with dash := .alive } else v
    have s1 : Seg o e before v (if dash then [.attach] else []) v1 := by
      cases dash with
      | true => exact Seg.cons hv trivial (Seg.nil ⟨st _ rfl rfl, (fun h => by cases h), fun _ => hd rfl, hv.waited, hv.placed, hv.code⟩)
      | false => exact Seg.nil hv
    have k1 : v1.status = v.status ∧ v1.waited = false ∧ v1.listening = none ∧ v1.registered = false ∧ v1.code = none ∧ v1.dash ≠ .gone ∧ v1.placed = false := by
      cases dash <;> simp [v1, hw, hl, hr, hc, hg, hpl]
    have drop : ∃ v', Seg o e before v1 (if dash then [.dropDashboard] else []) v' ∧ v'.listening = none ∧ v'.code = none ∧ v'.registered = false := by
      cases dash with
      | true =>
        refine ⟨_, Seg.cons s1.2.2 trivial (Seg.nil ⟨st _ rfl rfl, (fun _ h => ?_), fun _ => hd rfl, hv.waited, hv.placed, hv.code⟩), hl, hc, hr⟩
        simp [V.act, v1, hl] at h
      | false => exact ⟨_, Seg.nil s1.2.2, hl, hc, hr⟩
    obtain ⟨v2, d1, d2, d3, d4⟩ := drop
    dsimp only
    split
    · exact ⟨v2, s1.append d1, d2, d3, Or.inr ⟨d4, cc _⟩⟩
    · split
      · exact ⟨v2, s1.append d1, d2, d3, Or.inr ⟨d4, cc _⟩⟩
      · rename_i uri _
        have ok3 : Ok o e before { v1 with listening := some uri } :=
          ⟨st _ k1.1 (by rw [hw]; exact k1.2.1), fun h => absurd h k1.2.2.2.2.2.1, s1.2.2.uses, s1.2.2.waited, fun _ => Or.inl rfl,
            fun c h => absurd (k1.2.2.2.2.1.symm.trans h) (by simp)⟩
        have s3 : Seg o e before v1 [.listen uri] { v1 with listening := some uri } := Seg.cons s1.2.2 trivial (Seg.nil ok3)
        obtain ⟨v', h1, h2, h3, h4⟩ := seg_after _ ok3 hne uri rfl dash hd k1.2.2.2.2.2.1 k1.2.1 k1.2.2.2.1 k1.2.2.2.2.1 k1.2.2.2.2.2.2
          (fun ho => by obtain ⟨t, ht, hx⟩ := hs ho; exact ⟨t, by rw [← ht]; exact k1.1, hx⟩)
        refine ⟨v', (s1.append s3).append h1, h2, h3, ?_⟩
        rcases h4 with h4 | h4
        · exact Or.inl h4
        · exact Or.inr ⟨h4.1, Or.inr h4.2⟩

theorem seg_inside (v : V) (hv : Ok o e before v) (hne : tmpPath o e ≠ o.statusFile) (hl : v.listening = none)
    (hg : v.dash = .unused) (hw : v.waited = false) (hr : v.registered = false) (hc : v.code = none) (hpl : v.placed = false)
    (hs : Opens o e → ∃ t, v.status = some t ∧ t <+: "starting".toList) :
    ∃ v', Seg o e before v (inside o e).1 v' ∧ v'.listening = none ∧ v'.code = none
      ∧ ((v'.registered = true ∧ v'.waited = true ∧ (inside o e).2 = 0)
        ∨ (v'.registered = false ∧ ((inside o e).2 = -1 ∨ (inside o e).2 = -2 ∨ (inside o e).2 = -3))) := by
  unfold inside
  split
  · exact ⟨v, Seg.nil hv, hl, hc, Or.inr ⟨hr, Or.inl rfl⟩⟩
  · split
    · rename_i x _
      exact ⟨v, Seg.nil hv, hl, hc, Or.inr ⟨hr, by cases x <;> simp [codeOf]⟩⟩
    · rename_i f _
      obtain ⟨v', h1, h2, h3, h4⟩ := seg_start v hv hne f hl hg hw hr hc hpl hs
      refine ⟨v', h1, h2, h3, ?_⟩
      rcases h4 with h4 | h4
      · exact Or.inl h4
      · exact Or.inr ⟨h4.1, Or.inr h4.2⟩

theorem level_valid (s : Text) : isValidLogLevel s = true ↔ ∃ n l, (n, l) ∈ levelNames ∧ s.map lower = n.toList := by
  simp only [isValidLogLevel, levelNames, Bool.or_eq_true, beq_iff_eq, List.mem_cons, List.not_mem_nil, or_false, Prod.mk.injEq]
  constructor
  · rintro ((((((h | h) | h) | h) | h) | h) | h)
    · exact ⟨_, _, Or.inl ⟨rfl, rfl⟩, h⟩
    · exact ⟨_, _, Or.inr (Or.inl ⟨rfl, rfl⟩), h⟩
    · exact ⟨_, _, Or.inr (Or.inr (Or.inr (Or.inl ⟨rfl, rfl⟩))), h⟩
    · exact ⟨_, _, Or.inr (Or.inr (Or.inl ⟨rfl, rfl⟩)), h⟩
    · exact ⟨_, _, Or.inr (Or.inr (Or.inr (Or.inr (Or.inl ⟨rfl, rfl⟩)))), h⟩
    · exact ⟨_, _, Or.inr (Or.inr (Or.inr (Or.inr (Or.inr (Or.inl ⟨rfl, rfl⟩))))), h⟩
    · exact ⟨_, _, Or.inr (Or.inr (Or.inr (Or.inr (Or.inr (Or.inr ⟨rfl, rfl⟩))))), h⟩
  · rintro ⟨n, l, h, h2⟩
    rcases h with ⟨rfl, rfl⟩ | ⟨rfl, rfl⟩ | ⟨rfl, rfl⟩ | ⟨rfl, rfl⟩ | ⟨rfl, rfl⟩ | ⟨rfl, rfl⟩ | ⟨rfl, rfl⟩ <;> simp [h2]

theorem why_of (x : Failure) (h : FailedBecause o e x) : CodeTells o e (codeOf x) := by
  cases x with
  | configuration => exact ⟨fun h => absurd h (by decide), fun _ => h, fun h => absurd h (by decide)⟩
  | other => exact ⟨fun h => absurd h (by decide), fun h => absurd h (by decide), fun _ => h⟩

theorem why_after (o : CommandLine) (e : Luck) (dash : Bool) (uri : Text) : CodeTells o e (afterListening o e dash uri).2 := by
  have zero : CodeTells o e 0 := ⟨fun h => absurd h (by decide), fun h => absurd h (by decide), fun h => absurd h (by decide)⟩
  unfold afterListening
  dsimp only
  by_cases h1 : o.generate = []
  · simp only [h1, List.isEmpty_nil, if_true]; exact zero
  · rw [if_neg (by simpa using h1)]
    by_cases h2 : (e.generated.opens && e.renames) = true
    · rw [if_pos h2]; exact zero
    · rw [if_neg h2]
      refine why_of .other (Or.inr (Or.inr (Or.inr (Or.inr ⟨rfl, h1, ?_⟩))))
      cases h3 : e.generated.opens
      · exact Or.inl rfl
      · rw [h3] at h2; right; simpa using h2

theorem why_inside (o : CommandLine) (e : Luck) : CodeTells o e (inside o e).2 := by
  unfold inside
  split
  · rename_i h
    refine ⟨fun _ => Or.inr (Or.inr ?_), fun h => absurd h (by decide), fun h => absurd h (by decide)⟩
    have key : ¬ isValidLogLevel (optionValue o.log "info".toList) = true := by rw [h]; decide
    cases hl : o.log with
    | nil =>
      rw [hl] at key
      exact absurd (by decide) key
    | cons c s =>
      refine ⟨by simp, fun n l hm he => key ?_⟩
      rw [hl]
      exact (level_valid _).2 ⟨n, l, hm, he⟩
  · split
    · rename_i x hx
      refine why_of x (Or.inl ?_)
      by_cases h1 : o.configuration = []
      · rw [h1] at hx; simp at hx
      · rw [if_neg (by simpa using h1)] at hx; exact ⟨h1, hx⟩
    · rename_i f _
      unfold start
      dsimp only
      split
      · rename_i x hx
        exact why_of x (Or.inr (Or.inl hx))
      · split
        · rename_i x hx
          refine why_of x (Or.inr (Or.inr (Or.inl ?_)))
          split at hx
          · exact hx
          · cases hx
        · split
          · rename_i x hx
            exact why_of x (Or.inr (Or.inr (Or.inr (Or.inl ⟨_, hx⟩))))
          · exact why_after o e _ _

/-- Everything a process does is in order. -/
theorem seg_main (tmp : Option Text) (hne : tmpPath o e ≠ o.statusFile) :
    ∃ v', Seg o e before { tmp := tmp, status := before } (main o e) v' ∧ v'.code.isSome := by
  have ok0 : Ok o e before { tmp := tmp, status := before } := ⟨fun _ => Or.inl ⟨rfl, rfl⟩, (fun h => by cases h), (fun h => absurd rfl h), (fun h => by cases h), (fun h => by cases h), (fun _ h => by cases h)⟩
  have quick : ∀ c : Int, (c = 0 → o.help = true ∨ o.version = true) → (c = 0 ∨ c = -1) → CodeTells o e c →
      ∃ v', Seg o e before { tmp := tmp, status := before } [.exit c] v' ∧ v'.code.isSome := by
    intro c h1 h2 h3
    refine ⟨_, Seg.cons ok0 ⟨rfl, (fun h => by cases h), fun h => ?_, ?_, (fun h => by cases h), rfl⟩ (Seg.nil ⟨ok0.status, ok0.gone, ok0.uses, ok0.waited, ok0.placed, fun c' h => ?_⟩), rfl⟩
    · rcases h1 h with h | h
      · exact Or.inl h
      · exact Or.inr (Or.inl h)
    · rcases h2 with h | h
      · exact Or.inl h
      · exact Or.inr (Or.inl h)
    · have hcc : c = c' := by simpa [V.act] using h
      subst hcc
      refine ⟨rfl, fun h => ?_, ?_, (fun h => by cases h), h3⟩
      · rcases h1 h with h | h
        · exact Or.inl h
        · exact Or.inr (Or.inl h)
      · rcases h2 with h | h
        · exact Or.inl h
        · exact Or.inr (Or.inl h)
  have zero : CodeTells o e 0 := ⟨fun h => absurd h (by decide), fun h => absurd h (by decide), fun h => absurd h (by decide)⟩
  unfold main
  split
  · rename_i h
    exact quick _ (fun h => absurd h (by decide)) (by decide) ⟨fun _ => Or.inl h, fun h => absurd h (by decide), fun h => absurd h (by decide)⟩
  split
  · rename_i h; exact quick _ (fun _ => Or.inl h) (by decide) zero
  split
  · rename_i h
    exact quick _ (fun h => absurd h (by decide)) (by decide)
      ⟨fun _ => Or.inr (Or.inl ⟨by simpa using h.1, h.2⟩), fun h => absurd h (by decide), fun h => absurd h (by decide)⟩
  split
  · rename_i h; exact quick _ (fun _ => Or.inr h) (by decide) zero
  have s1 := seg_status _ ok0 hne rfl "starting".toList e.starting (fun _ x hx => by right; right; right; left; exact ⟨x, rfl, hx, rfl⟩)
  have hst : ∀ u : V, u = (if o.statusFile = [] ∨ e.starting.opens = false then ({ tmp := tmp, status := before } : V)
        else { ({ tmp := tmp, status := before } : V) with status := some ("starting".toList.take e.starting.pieces.sum) }) →
      u.listening = none ∧ u.dash = .unused ∧ u.waited = false ∧ u.registered = false ∧ u.code = none ∧ u.placed = false
        ∧ (Opens o e → ∃ t, u.status = some t ∧ t <+: "starting".toList) := by
    intro u hu
    by_cases hx : o.statusFile = [] ∨ e.starting.opens = false
    · rw [if_pos hx] at hu; subst hu
      refine ⟨rfl, rfl, rfl, rfl, rfl, rfl, fun ho => ?_⟩
      rcases hx with hx | hx
      · exact absurd hx ho.1
      · rw [ho.2.1] at hx; cases hx
    · rw [if_neg hx] at hu; subst hu
      exact ⟨rfl, rfl, rfl, rfl, rfl, rfl, fun _ => ⟨_, rfl, List.take_prefix _ _⟩⟩
  generalize (if o.statusFile = [] ∨ e.starting.opens = false then ({ tmp := tmp, status := before } : V)
        else { ({ tmp := tmp, status := before } : V) with status := some ("starting".toList.take e.starting.pieces.sum) }) = v1 at s1 hst
  obtain ⟨a1, a2, a3, a4, a5, a7, a6⟩ := hst v1 rfl
  obtain ⟨v2, b1, b2, b3, b4⟩ := seg_inside v1 s1.2.2 hne a1 a2 a3 a4 a5 a7 a6
  obtain ⟨v3, c1, c2⟩ := seg_finish v2 b1.2.2 hne (inside o e).2 b2 (by grind) (by grind) (by grind) b3 (why_inside o e)
  refine ⟨v3, ?_, by simp [c2]⟩
  have := (s1.append b1).append c1
  simpa using this

end SilKit.RegistryTool
