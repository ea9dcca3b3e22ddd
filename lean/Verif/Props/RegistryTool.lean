import Verif.Lemmas.RegistryToolWorld
/-!
# C70: the files, the settings and the end of `sil-kit-registry`

Scripts start the registry, wait for its files, read them, and end it with a signal. See Model/RegistryTool.lean.
-/
namespace SilKit.Props
open SilKit SilKit.ConfigText SilKit.RegistryTool SilKit.RegistryTool.Spec

/-- Any number of registries that generate the same file; each has its own status file. -/
def toolOptions (i : Nat) : CommandLine := { generate := ['g'], statusFile := 's' :: List.replicate i 'x', listenUri := "silkit://a:0".toList }

/-- The operating system chooses the port; files are written in one or two pieces. -/
def toolLuck (i : Nat) : Luck :=
  { starting := ⟨true, [3, 5]⟩, running := ⟨true, [7]⟩, stopped := ⟨true, [7]⟩, generated := ⟨true, [5, 100]⟩, random := List.replicate i 'r'
    listen := fun _ => .ok "silkit://a:1".toList, yaml := fun u => "RegistryUri: ".toList ++ u }

theorem toolGenerate (i : Nat) : (toolOptions i).generate = ['g'] := rfl
theorem toolStatus (i : Nat) : (toolOptions i).statusFile = 's' :: List.replicate i 'x' := rfl

theorem toolTmp_length (i : Nat) : (tmpPath (toolOptions i) (toolLuck i)).length = i + 6 := by
  have h1 : ".".toList.length = 1 := by decide
  have h2 : ".tmp".toList.length = 4 := by decide
  have e2 : (toolLuck i).random.length = i := List.length_replicate
  simp only [tmpPath, List.length_append, h1, h2, toolGenerate, e2, List.length_singleton]
  omega

theorem toolTmp_head (i : Nat) : (tmpPath (toolOptions i) (toolLuck i)).head? = some 'g' := rfl

theorem toolApart : Apart toolOptions toolLuck where
  tmps i j h := by
    have := congrArg List.length h
    rw [toolTmp_length, toolTmp_length] at this; omega
  tmpGenerated i j h := by
    have := congrArg List.length h
    rw [toolTmp_length, toolGenerate, List.length_singleton] at this; omega
  tmpStatus i j h := by
    have := congrArg List.head? h
    rw [toolTmp_head, toolStatus] at this
    simp at this
  statusGenerated i j _ h := by
    have := congrArg List.head? h
    rw [toolStatus, toolGenerate] at this
    simp at this
  statuses i j _ h := by
    have := congrArg List.length h
    rw [toolStatus, toolStatus] at this
    simpa using this

def toolStart (ops : List Op) : World := RegistryTool.run (fun _ => none) toolOptions toolLuck ops

def runs (n i : Nat) : List Op := List.replicate n (.run i)

variable (os : Nat → CommandLine) (es : Nat → Luck)

/-! ## The generated configuration -/

/-- **C70**: whatever happens, a generated file changes only in one way: it is replaced at once by the configuration of a registry that is listening at this
moment; in full, if the file system has taken over everything. What is missing: the code does not notice if it has not
(`C70_full_disk_leaves_part_of_the_configuration`). -/
theorem C70_generated_configuration_is_replaced_at_once_partial (ap : Apart os es) (f0 : Path → Option Text) (ops : List Op) (pol : Polite os es ops)
    (op : Op) (hop : ∀ p c, op ≠ .user p c) (p : Path) (hp : ∀ i, p ≠ tmpPath (os i) (es i) ∧ p ≠ (os i).statusFile)
    (hne : (step (run f0 os es ops) op).files p ≠ (run f0 os es ops).files p) :
    ∃ i uri text whole, p = (os i).generate ∧ ((run f0 os es ops).procs i).listening = some uri ∧ IsCompleteText (os i) (es i) uri whole
      ∧ (step (run f0 os es ops) op).files p = some text ∧ text <+: whole ∧ (WrittenInFull (es i).generated whole → text = whole) := by
  obtain ⟨i, uri, t, _, h1, h2, h3, _, h4, h5⟩ := step_file ap (Inv.run ap f0 ops pol) op hop p hp hne
  exact ⟨i, uri, t, _, h1, h2, generatedText_complete _ _ _, h3, h4, h5⟩

example : (toolStart (runs 7 0)).files ['g'] = none ∧ (step (toolStart (runs 7 0)) (.run 0)).files ['g']
    = some "RegistryUri: silkit://a:1\n".toList := by decide +kernel

/-- **C70**: who reads a generated file at any time reads what was there before, what a user has put there, or the whole configuration of a registry that has been
listening — at every point where processes crash or are killed, and for any number of registries that generate the same file. -/
theorem C70_generated_configuration_is_whole_partial (ap : Apart os es) (f0 : Path → Option Text) (ops : List Op) (pol : Polite os es ops)
    (full : ∀ i uri whole, IsCompleteText (os i) (es i) uri whole → WrittenInFull (es i).generated whole)
    (p : Path) (hp : ∀ i, p ≠ tmpPath (os i) (es i) ∧ p ≠ (os i).statusFile) :
    (run f0 os es ops).files p = f0 p ∨ (∃ c, .user p c ∈ ops ∧ (run f0 os es ops).files p = c)
    ∨ ∃ i uri whole, p = (os i).generate ∧ IsCompleteText (os i) (es i) uri whole ∧ (run f0 os es ops).files p = some whole
        ∧ ((run f0 os es ops).procs i).placed = true := by
  induction ops using ConfigFiles.snoc_induction with
  | nil => exact Or.inl rfl
  | snoc ops op ih =>
    have pol' : Polite os es ops := fun x hx => pol x (by simp [hx])
    have e1 : run f0 os es (ops ++ [op]) = step (run f0 os es ops) op := by simp [run]
    rw [e1]
    by_cases hch : (step (run f0 os es ops) op).files p = (run f0 os es ops).files p
    · rw [hch]
      rcases ih pol' with h | ⟨c, h1, h2⟩ | ⟨i, uri, t, h1, h2, h3, h4⟩
      · exact Or.inl h
      · exact Or.inr (Or.inl ⟨c, by simp [h1], h2⟩)
      · exact Or.inr (Or.inr ⟨i, uri, t, h1, h2, h3, placed_mono _ _ _ h4⟩)
    · by_cases hop : ∃ q c, op = .user q c
      · obtain ⟨q, c, rfl⟩ := hop
        have hq : p = q := by
          refine Classical.byContradiction fun hx => hch ?_
          simp [step, setFile, hx]
        subst hq
        exact Or.inr (Or.inl ⟨c, by simp, by simp [step, setFile]⟩)
      · obtain ⟨i, uri, t, _, h1, h2, h3, h4, h5, h6⟩ := step_file ap (Inv.run ap f0 ops pol') op (fun q c h => hop ⟨q, c, h⟩) p hp hch
        have hc := generatedText_complete (os i) (es i) uri
        have := h6 (full i uri _ hc)
        subst this
        exact Or.inr (Or.inr ⟨i, uri, _, h1, hc, h3, h4⟩)

example : (∀ i uri whole, IsCompleteText (toolOptions i) { toolLuck i with yaml := fun _ => ['Y'] } uri whole →
      WrittenInFull { toolLuck i with yaml := fun _ => ['Y'] }.generated whole)
    ∧ ∀ i, ['g'] ≠ tmpPath (toolOptions i) (toolLuck i) ∧ ['g'] ≠ (toolOptions i).statusFile := by
  refine ⟨fun i uri whole h => ?_, fun i => ⟨fun h => toolApart.tmpGenerated i 0 h.symm, fun h => ?_⟩⟩
  · have h2 : ¬ ['.', 'j', 's', 'o', 'n'] <:+ (toolOptions i).generate := fun h => absurd h.length_le (by rw [toolGenerate]; decide)
    have h3 := h.2 h2
    rw [h3]
    show 2 ≤ 105
    decide
  · have := congrArg List.head? h
    rw [toolStatus] at this
    simp at this

/-- **C70**: from the moment at which a registry has generated its file, it is listening, until it is ended by a signal or killed. -/
theorem C70_ready_when_generated (ap : Apart os es) (f0 : Path → Option Text) (ops : List Op) (pol : Polite os es ops) (i : Nat)
    (hp : ((run f0 os es ops).procs i).placed = true) :
    ((run f0 os es ops).procs i).listening.isSome ∨ ((run f0 os es ops).procs i).signalled = true ∨ ((run f0 os es ops).procs i).killed = true := by
  have inv := Inv.run ap f0 ops pol i
  cases hk : ((run f0 os es ops).procs i).killed with
  | true => exact Or.inr (Or.inr rfl)
  | false =>
    rcases (ok_of inv hk).placed hp with h | h
    · exact Or.inl h
    · exact Or.inr (Or.inl (inv.waited h))

example : ((toolStart (runs 8 0)).procs 0).placed = true ∧ ((toolStart (runs 8 0)).procs 0).listening = some "silkit://a:1".toList := by decide +kernel

/-- **C70** fails as stated: the disk is full, and a part of the configuration is generated; the registry runs and reports nothing. -/
theorem C70_full_disk_leaves_part_of_the_configuration :
    let es : Nat → Luck := fun i => { toolLuck i with generated := ⟨true, [5]⟩ }
    let w := RegistryTool.run (fun _ => none) toolOptions es (runs 10 0)
    w.files ['g'] = some "Regis".toList ∧ w.files ['s'] = some "running".toList ∧ (w.procs 0).listening.isSome := by
  decide +kernel

/-- **C70** fails as stated: the file stays when the registry has ended, so that somebody who waits for the file of the next registry finds it, although nobody is
listening. -/
theorem C70_generated_configuration_outlives_the_registry :
    let w := toolStart (runs 12 0 ++ [.signal 0] ++ runs 10 0 ++ runs 1 1)
    (w.procs 0).code = some 0 ∧ w.files ['g'] = some "RegistryUri: silkit://a:1\n".toList ∧ (w.procs 0).listening = none ∧ (w.procs 1).listening = none := by
  decide +kernel

/-- The temporary file stays if it cannot be renamed, or if the process is killed before. -/
theorem C70_temporary_file_stays :
    let es : Nat → Luck := fun i => { toolLuck i with renames := false }
    let w := RegistryTool.run (fun _ => none) toolOptions es (runs 20 0)
    (w.procs 0).code = some (-3) ∧ w.files "g..tmp".toList = some "RegistryUri: silkit://a:1\n".toList
    ∧ (toolStart (runs 7 0 ++ [.kill 0])).files "g..tmp".toList = some "RegistryUri: silkit://a:1\n".toList := by
  decide +kernel

/-! ## The status file -/

/-- **C70**: as long as the status file can be opened, its contents are true, and also when the process has been killed. What is missing: the words are not written at
once (`C70_status_file_can_be_empty`), and errors are not noticed. -/
theorem C70_status_file_is_true_partial (ap : Apart os es) (f0 : Path → Option Text) (ops : List Op) (pol : Polite os es ops) (i : Nat)
    (hs : (os i).statusFile ≠ []) (h1 : (es i).starting.opens = true) (h2 : (es i).running.opens = true) (h3 : (es i).stopped.opens = true) :
    StatusTrue (os i) ((run f0 os es ops).procs i) (f0 (os i).statusFile) ((run f0 os es ops).files (os i).statusFile) := by
  have inv := Inv.run ap f0 ops pol i
  have ho : Opens (os i) (es i) := ⟨hs, h1, h2, h3⟩
  cases hk : ((run f0 os es ops).procs i).killed with
  | true => exact (inv.dead hk).2.2 ho
  | false => exact statusTrue_of_ok ((ok_of inv hk).status ho) rfl rfl rfl

/-- **C70**: who reads "running" can connect, and the configuration has been generated, unless the registry is killed or ended by a signal. -/
theorem C70_running_means_ready_partial (ap : Apart os es) (f0 : Path → Option Text) (ops : List Op) (pol : Polite os es ops) (i : Nat)
    (hs : (os i).statusFile ≠ []) (h1 : (es i).starting.opens = true) (h2 : (es i).running.opens = true) (h3 : (es i).stopped.opens = true)
    (hb : f0 (os i).statusFile ≠ some "running".toList) (hr : (run f0 os es ops).files (os i).statusFile = some "running".toList)
    (hk : ((run f0 os es ops).procs i).killed = false) (hg : ((run f0 os es ops).procs i).signalled = false) :
    ((run f0 os es ops).procs i).listening.isSome ∧ ((os i).generate ≠ [] → ((run f0 os es ops).procs i).placed = true) := by
  have inv := Inv.run ap f0 ops pol i
  have hw : ((run f0 os es ops).procs i).waited = false := by
    cases hx : ((run f0 os es ops).procs i).waited with
    | false => rfl
    | true => rw [inv.waited hx] at hg; cases hg
  rcases C70_status_file_is_true_partial os es ap f0 ops pol i hs h1 h2 h3 with h | h | h | ⟨t, e1, e2, _⟩ | ⟨t, e1, e2, e3, e4⟩ | ⟨t, e1, e2, _⟩
  · exact absurd (h.1.symm.trans hr) hb
  · rw [hr] at h; cases h.1
  · rw [hr] at h; cases h
  · rw [hr] at e1; cases e1; exact absurd e2 (by decide)
  · refine ⟨?_, e4⟩
    rcases e3 hk with h | h
    · exact h
    · rw [hw] at h; cases h
  · rw [hr] at e1; cases e1; exact absurd e2 (by decide)

example : (toolStart (runs 10 0)).files (toolOptions 0).statusFile = some "running".toList ∧ ((toolStart (runs 10 0)).procs 0).killed = false
    ∧ ((toolStart (runs 10 0)).procs 0).signalled = false := by decide +kernel

/-- **C70** fails as stated: the status is not written at once; a reader can find nothing in the file, or a part of a word. -/
theorem C70_status_file_can_be_empty : (toolStart (runs 1 0)).files ['s'] = some [] ∧ (toolStart (runs 2 0)).files ['s'] = some "sta".toList
    ∧ (toolStart (runs 9 0)).files ['s'] = some [] := by decide +kernel

/-- **C70** fails as stated: if the status file can be opened only once, nobody notices: it says "starting" for ever. -/
theorem C70_status_file_can_be_stale :
    let es : Nat → Luck := fun i => { toolLuck i with running := ⟨false, []⟩ }
    let w := RegistryTool.run (fun _ => none) toolOptions es (runs 11 0)
    w.files ['s'] = some "starting".toList ∧ (w.procs 0).listening.isSome ∧ (w.procs 0).registered = true := by decide +kernel

/-! ## Signals and exit codes -/

/-- **C70**: once its signal handler is installed, a signal ends the registry with exit code 0; nobody can connect any more, and the status file is gone if it can be
removed. Nothing else is needed for that: it holds in all circumstances, and no other process has to do anything. -/
theorem C70_signal_ends_the_registry (ap : Apart os es) (f0 : Path → Option Text) (ops : List Op) (pol : Polite os es ops) (i : Nat)
    (hk : ((run f0 os es ops).procs i).killed = false) (hr : ((run f0 os es ops).procs i).registered = true)
    (hc : ((run f0 os es ops).procs i).catching = true) (ht : ((run f0 os es ops).procs i).todo ≠ []) :
    ∃ n, let w := run f0 os es (ops ++ [.signal i] ++ runs n i)
      (w.procs i).code = some 0 ∧ (w.procs i).listening = none ∧ ((es i).removes = true → (os i).statusFile ≠ [] → w.files (os i).statusFile = none) := by
  have inv := Inv.run ap f0 ops pol
  have e1 : ∀ n, run f0 os es (ops ++ [.signal i] ++ runs n i) = (runs n i).foldl step (step (run f0 os es ops) (.signal i)) := by
    intro n; simp [run]
  have hp : (step (run f0 os es ops) (.signal i)).procs i = { (run f0 os es ops).procs i with signalled := true } := by
    simp [step, setProc, onSignal, ht, hc, hr]
  have inv1 := Inv.step ap inv (.signal i) (by intro p c h; cases h)
  have fin := finishes ap inv1 i (by rw [hp]; exact hk) (by rw [hp])
  refine ⟨((step (run f0 os es ops) (.signal i)).procs i).todo.length, ?_⟩
  rw [e1]
  obtain ⟨f1, f2, f3, f4⟩ := fin
  have hcode := ended (f4 i) f2 f1
  obtain ⟨c, hc'⟩ := Option.isSome_iff_exists.1 hcode
  have ok := ok_of (f4 i) f2
  obtain ⟨k1, _, _, k4, _⟩ := ok.code c hc'
  obtain ⟨k5, k6⟩ := k4 f3
  subst k5
  exact ⟨hc', k1, k6⟩

example : ((toolStart (runs 12 0)).procs 0).registered = true ∧ ((toolStart (runs 12 0)).procs 0).catching = true
    ∧ ((toolStart (runs 12 0 ++ [.signal 0] ++ runs 6 0)).procs 0).code = some 0 ∧ (toolStart (runs 12 0 ++ [.signal 0] ++ runs 6 0)).files ['s'] = none := by
  decide +kernel

/-- **C70**: the exit code is 0, -1, -2 or -3, and tells the reason; it is 0 only for `--help` and `--version` and after a signal. A registry that has ended is not
listening. -/
theorem C70_exit_codes (ap : Apart os es) (f0 : Path → Option Text) (ops : List Op) (pol : Polite os es ops) (i : Nat) (c : Int)
    (hk : ((run f0 os es ops).procs i).killed = false) (hc : ((run f0 os es ops).procs i).code = some c) :
    (c = 0 ∨ c = -1 ∨ c = -2 ∨ c = -3) ∧ (c = 0 → (os i).help = true ∨ (os i).version = true ∨ ((run f0 os es ops).procs i).signalled = true)
      ∧ CodeTells (os i) (es i) c ∧ ((run f0 os es ops).procs i).listening = none := by
  have inv := Inv.run ap f0 ops pol i
  obtain ⟨k1, k2, k3, _, k5⟩ := (ok_of inv hk).code c hc
  refine ⟨k3, fun h => ?_, k5, k1⟩
  rcases k2 h with h | h | h
  · exact Or.inl h
  · exact Or.inr (Or.inl h)
  · exact Or.inr (Or.inr (inv.waited h))

example : ((RegistryTool.run (fun _ => none) toolOptions (fun i => { toolLuck i with listen := fun _ => .error .other }) (runs 20 0)).procs 0).code = some (-3) := by
  decide +kernel

/-- **C70** fails as stated: a signal between the two steps of installing the handler is lost: the registry goes on running, however long one waits. -/
theorem C70_signal_can_be_lost (n : Nat) :
    let w := toolStart (runs 11 0 ++ [.signal 0] ++ runs (n + 1) 0)
    (w.procs 0).killed = false ∧ (w.procs 0).code = none ∧ (w.procs 0).listening.isSome := by
  have e1 : toolStart (runs 11 0 ++ [.signal 0] ++ runs (n + 1) 0) = (runs n 0).foldl step (toolStart (runs 11 0 ++ [.signal 0] ++ runs 1 0)) := by
    simp [toolStart, RegistryTool.run, runs, List.replicate_succ]
  rw [e1]
  generalize hw : toolStart (runs 11 0 ++ [.signal 0] ++ runs 1 0) = w
  have h1 : ∃ rest, (w.procs 0).todo = .wait :: rest := by subst hw; exact ⟨_, rfl⟩
  have h2 : (w.procs 0).signalled = false ∧ (w.procs 0).killed = false ∧ (w.procs 0).code = none ∧ (w.procs 0).listening.isSome := by
    subst hw; decide +kernel
  obtain ⟨rest, h1⟩ := h1
  have h3 : step w (.run 0) = w := by simp [step, h1, h2.1]
  have h4 : (runs n 0).foldl step w = w := by
    induction n with
    | zero => rfl
    | succ n ih =>
      rw [runs, List.replicate_succ, List.foldl_cons, h3]
      exact ih (by simp [toolStart, RegistryTool.run, runs, List.replicate_succ])
  rw [h4]
  exact ⟨h2.2.1, h2.2.2.1, h2.2.2.2⟩

/-- **C70** fails as stated: a signal after the status "running" can come before the handler is installed: the process is killed, and the file says "running". -/
theorem C70_signal_after_running_can_kill :
    let w := toolStart (runs 10 0 ++ [.signal 0] ++ runs 10 0)
    (w.procs 0).killed = true ∧ (w.procs 0).code = none ∧ (w.procs 0).listening = none ∧ w.files ['s'] = some "running".toList := by
  decide +kernel

/-! ## The dashboard -/

/-- **C70**: without a dashboard nothing that participants do leads to undefined behaviour, and with a dashboard it does only after a signal. -/
theorem C70_no_undefined_behaviour_partial (ap : Apart os es) (f0 : Path → Option Text) (ops : List Op) (pol : Polite os es ops) (i : Nat)
    (h : ((∀ f, (settings (os i) f).dashboard = none) ∨ (es i).dashboard = false) ∨ ((run f0 os es ops).procs i).signalled = false) :
    ((run f0 os es ops).procs i).undefined = false := by
  have inv := Inv.run ap f0 ops pol i
  cases hu : ((run f0 os es ops).procs i).undefined with
  | false => rfl
  | true =>
    obtain ⟨h1, f, h2, h3⟩ := inv.undefined hu
    rcases h with (h | h) | h
    · rw [h f] at h2; cases h2
    · rw [h] at h3; cases h3
    · rw [inv.waited h1] at h; cases h

example : (RegistryTool.settings (toolOptions 0) {}).dashboard = none ∧ ((toolStart (runs 9 0 ++ [.event 0])).procs 0).undefined = false := by decide +kernel

/-- **C70** fails as stated: the dashboard is destroyed before the registry that reports to it: a participant that connects or leaves while the registry is ending
makes it call a function of an object that does not exist any more. -/
theorem C70_dashboard_is_destroyed_too_early :
    let os : Nat → CommandLine := fun i => { toolOptions i with dashboardUri := "http://d".toList }
    let w := RegistryTool.run (fun _ => none) os toolLuck (runs 13 0 ++ [.signal 0] ++ runs 2 0 ++ [.event 0])
    (w.procs 0).undefined = true := by decide +kernel

/-! ## Settings -/

/-- **C70**: the configuration file overrides the command line, and the command line the defaults: the URI to listen on, the dashboard, the domain sockets, the
sinks and the collection of metrics. -/
theorem C70_settings (o : CommandLine) (f : FileSettings) :
    (settings o f).listenUri = firstGiven f.listenUri o.listenUri "silkit://localhost:8500".toList
    ∧ ((settings o f).dashboard.isSome ↔ f.dashboardUri.isSome ∨ o.dashboardUri ≠ [] ∨ o.enableDashboard = true)
    ∧ (∀ u, f.dashboardUri = some u → (settings o f).dashboard = some u)
    ∧ (∀ u, f.dashboardUri = none → (settings o f).dashboard = some u → u = if o.dashboardUri ≠ [] then o.dashboardUri else "http://localhost:8082".toList)
    ∧ (settings o f).enableDomainSockets = f.enableDomainSockets.getD true
    ∧ (f.sinks ≠ [] → (settings o f).sinks = f.sinks)
    ∧ (f.sinks = [] → ∃ l, (settings o f).sinks = [⟨.stdout, l⟩]
        ∧ ∀ n l', (n, l') ∈ levelNames → (if o.log ≠ [] then o.log else "info".toList).map lower = n.toList → l = l')
    ∧ (settings o f).collectFromRemote = some (f.collectFromRemote.getD true) := by
  rw [settings_gen]
  obtain ⟨h1, h2, h3, h4, h5, h6, h7, h8, _⟩ := gen_facts "silkit://localhost:8500".toList "http://localhost:8082".toList "info".toList (by decide) o f
  refine ⟨h1, h2, h3, h4, h5, h6, fun h => ⟨_, h7 h, fun n l' k1 k2 => level_value _ n l' k1 ?_⟩, h8⟩
  rw [← k2]
  cases hx : o.log <;> simp [optionValue]

example : (settings { listenUri := "silkit://c:1".toList, log := "Debug".toList } { listenUri := some "silkit://f:2".toList }).listenUri = "silkit://f:2".toList
    ∧ (settings { listenUri := "silkit://c:1".toList, log := "Debug".toList } { listenUri := some "silkit://f:2".toList }).sinks = [⟨.stdout, .debug⟩] := by
  decide +kernel

/-- **C70**: `--log` accepts exactly the names of the levels, in any case. -/
theorem C70_log_levels (s : Text) : isValidLogLevel s = true ↔ ∃ n l, (n, l) ∈ levelNames ∧ s.map lower = n.toList := level_valid s

example : isValidLogLevel "WARN".toList = true ∧ isValidLogLevel "warning".toList = false := by decide +kernel

/-- **C70** fails as stated: the flush level of the configuration file has no effect. -/
theorem C70_flush_level_is_ignored (o : CommandLine) (f : FileSettings) (l : Level) :
    settings o { f with flushLevel := l } = settings o f ∧ (settings o f).flushLevel = .off := by
  refine ⟨rfl, ?_⟩
  rw [settings_gen]
  exact (gen_facts _ _ _ (by decide) o f).2.2.2.2.2.2.2.2.1

end SilKit.Props
