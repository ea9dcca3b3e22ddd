import Verif.Lemmas.RegistryTool
/-! # Lemmas about any number of registries, participants and users -/
namespace SilKit.RegistryTool
open SilKit SilKit.ConfigText SilKit.RegistryTool.Spec

variable {os : Nat → CommandLine} {es : Nat → Luck}

def viewOf (os : Nat → CommandLine) (es : Nat → Luck) (w : World) (i : Nat) : V :=
  { tmp := w.files (tmpPath (os i) (es i)), status := w.files (os i).statusFile, listening := (w.procs i).listening, placed := (w.procs i).placed
    dash := (w.procs i).dash, catching := (w.procs i).catching, registered := (w.procs i).registered, waited := (w.procs i).waited, code := (w.procs i).code }

structure Inv (os : Nat → CommandLine) (es : Nat → Luck) (f0 : Path → Option Text) (w : World) (i : Nat) : Prop where
  alive : (w.procs i).killed = false →
    ∃ v', Seg (os i) (es i) (f0 (os i).statusFile) (viewOf os es w i) (w.procs i).todo v' ∧ v'.code.isSome
  dead : (w.procs i).killed = true → (w.procs i).todo = [] ∧ (w.procs i).listening = none ∧
    (Opens (os i) (es i) → StatusTrue (os i) (w.procs i) (f0 (os i).statusFile) (w.files (os i).statusFile))
  undefined : (w.procs i).undefined = true → (w.procs i).waited = true ∧ Uses (os i) (es i)
  waited : (w.procs i).waited = true → (w.procs i).signalled = true
  signalled : (w.procs i).signalled = true → (w.procs i).registered = true

theorem Inv.init (ap : Apart os es) (f0 : Path → Option Text) (i : Nat) : Inv os es f0 (init f0 os es) i := by
  refine ⟨fun _ => ?_, (fun h => by cases h), (fun h => by cases h), (fun h => by cases h), (fun h => by cases h)⟩
  exact seg_main _ (ap.tmpStatus i i)

theorem untouched {o : CommandLine} {e : Luck} {v : V} {a : Act} (ha : ActOk o e v a) (f : Path → Option Text) (q : Path) (h1 : q ≠ tmpPath o e)
    (h2 : o.statusFile ≠ [] → q ≠ o.statusFile) (h3 : o.generate ≠ [] → q ≠ o.generate) : onFiles f a q = f q := by
  cases a with
  | truncate p => simp only [ActOk] at ha; simp only [onFiles, setFile]; grind
  | append p t => simp only [ActOk] at ha; simp only [onFiles, setFile]; grind
  | remove p => simp only [ActOk] at ha; simp only [onFiles, setFile]; grind
  | rename a b =>
    obtain ⟨rfl, rfl, h4, _⟩ := ha
    simp only [onFiles]
    cases f (tmpPath o e) with
    | some c => simp [setFile, h1, h3 h4]
    | none => rfl
  | _ => rfl

theorem Seg.head {o : CommandLine} {e : Luck} {before : Option Text} {v v' : V} {a : Act} {l : List Act} (h : Seg o e before v (a :: l) v') :
    Ok o e before v ∧ ActOk o e v a ∧ Seg o e before (v.act o e a) l v' := ⟨h.1.1, h.1.2.1, h.1.2.2, h.2.1, h.2.2⟩

theorem Seg.ok {o : CommandLine} {e : Luck} {before : Option Text} {v v' : V} {l : List Act} (h : Seg o e before v l v') : Ok o e before v := by
  cases l with
  | nil => have := h.2.1; simp [V.acts] at this; rw [this]; exact h.2.2
  | cons a l => exact h.head.1

/-- What the process itself does. -/
theorem view_own (ap : Apart os es) (w : World) (i : Nat) (a : Act) (rest : List Act) (ha : ActOk (os i) (es i) (viewOf os es w i) a) :
    viewOf os es { files := onFiles w.files a, procs := setProc w.procs i (onProc { w.procs i with todo := rest } a) } i
      = (viewOf os es w i).act (os i) (es i) a := by
  have n1 := ap.tmpStatus i i
  have n2 := ap.tmpGenerated i i
  have n3 := ap.statusGenerated i i
  cases a with
  | truncate p =>
    simp only [ActOk] at ha
    simp only [viewOf, onFiles, setFile, setProc, onProc, V.act]
    rcases ha with ⟨rfl, _⟩ | ⟨h, rfl⟩
    · simp [Ne.symm n1]
    · simp [n1, Ne.symm n1]
  | append p t =>
    simp only [ActOk] at ha
    simp only [viewOf, onFiles, setFile, setProc, onProc, V.act]
    rcases ha with ⟨rfl, _⟩ | ⟨h, rfl⟩
    · simp [Ne.symm n1]
    · simp [n1, Ne.symm n1]
  | remove p =>
    obtain ⟨h, rfl⟩ := ha
    simp [viewOf, onFiles, setFile, setProc, onProc, V.act, n1]
  | rename a b =>
    obtain ⟨rfl, rfl, h4, uri, t, h5, h6, _⟩ := ha
    have h6' : w.files (tmpPath (os i) (es i)) = some t := h6
    have h7 : (os i).statusFile ≠ (os i).generate := by
      by_cases hs : (os i).statusFile = []
      · rw [hs]; exact fun h => h4 h.symm
      · exact n3 hs
    simp [viewOf, onFiles, setFile, setProc, onProc, V.act, n2, Ne.symm n1, h6', h7]
  | _ => simp [viewOf, onFiles, setProc, onProc, V.act]

theorem onProc_fields (p : Proc) (a : Act) : (onProc p a).killed = p.killed ∧ (onProc p a).undefined = p.undefined ∧ (onProc p a).signalled = p.signalled
    ∧ (onProc p a).todo = p.todo := by
  cases a <;> simp [onProc]

theorem onProc_waited (p : Proc) (a : Act) (ha : a ≠ .wait) : (onProc p a).waited = p.waited := by
  cases a <;> simp [onProc] at *

theorem onProc_registered (p : Proc) (a : Act) (h : p.registered = true) : (onProc p a).registered = true := by
  cases a <;> simp [onProc, h]

theorem Inv.of_eq {f0 : Path → Option Text} {w w' : World} {i : Nat} (h : Inv os es f0 w i) (hp : w'.procs i = w.procs i)
    (h1 : w'.files (tmpPath (os i) (es i)) = w.files (tmpPath (os i) (es i))) (h2 : w'.files (os i).statusFile = w.files (os i).statusFile) :
    Inv os es f0 w' i := by
  have hv : viewOf os es w' i = viewOf os es w i := by simp [viewOf, hp, h1, h2]
  refine ⟨?_, ?_, ?_, ?_, ?_⟩
  · rw [hp, hv]; exact h.alive
  · rw [hp, h2]; exact h.dead
  · rw [hp]; exact h.undefined
  · rw [hp]; exact h.waited
  · rw [hp]; exact h.signalled

/-- The next action of a process that has one. -/
theorem Inv.next {f0 : Path → Option Text} {w : World} {i : Nat} (h : Inv os es f0 w i) {a : Act} {rest : List Act} (ht : (w.procs i).todo = a :: rest) :
    (w.procs i).killed = false ∧ ∃ v', Seg (os i) (es i) (f0 (os i).statusFile) (viewOf os es w i) (a :: rest) v' ∧ v'.code.isSome := by
  have hk : (w.procs i).killed = false := by
    cases hk : (w.procs i).killed
    · rfl
    · have := (h.dead hk).1; rw [ht] at this; cases this
  exact ⟨hk, by rw [← ht]; exact h.alive hk⟩

theorem statusTrue_of_ok {o : CommandLine} {before : Option Text} {v : V} {p : Proc} (h : StatusOk o before v) (h1 : p.listening = v.listening)
    (h2 : p.waited = v.waited) (h3 : p.placed = v.placed) : StatusTrue o p before v.status := by
  unfold StatusOk at h
  unfold StatusTrue
  rw [h1, h2, h3]
  rcases h with h | h | h | h | ⟨t, e1, e2, e3, e4⟩ | h
  · exact Or.inl h
  · exact Or.inr (Or.inl h)
  · exact Or.inr (Or.inr (Or.inl h))
  · exact Or.inr (Or.inr (Or.inr (Or.inl h)))
  · exact Or.inr (Or.inr (Or.inr (Or.inr (Or.inl ⟨t, e1, e2, fun _ => e3, e4⟩))))
  · exact Or.inr (Or.inr (Or.inr (Or.inr (Or.inr h))))

theorem statusTrue_die {o : CommandLine} {before : Option Text} {p : Proc} {c : Option Text} (h : StatusTrue o p before c) : StatusTrue o (die p) before c := by
  unfold StatusTrue at *
  rcases h with h | h | h | h | ⟨t, e1, e2, e3, e4⟩ | h
  · exact Or.inl ⟨h.1, rfl⟩
  · exact Or.inr (Or.inl ⟨h.1, rfl⟩)
  · exact Or.inr (Or.inr (Or.inl h))
  · exact Or.inr (Or.inr (Or.inr (Or.inl h)))
  · exact Or.inr (Or.inr (Or.inr (Or.inr (Or.inl ⟨t, e1, e2, (fun h => by cases h), e4⟩))))
  · obtain ⟨t, e1, e2, _⟩ := h
    exact Or.inr (Or.inr (Or.inr (Or.inr (Or.inr ⟨t, e1, e2, rfl⟩))))

theorem Inv.die {f0 : Path → Option Text} {w w' : World} {i : Nat} (h : Inv os es f0 w i) (hne : (w.procs i).todo ≠ []) (hf : w'.files = w.files)
    (hp : w'.procs i = die (w.procs i)) : Inv os es f0 w' i := by
  obtain ⟨a, rest, ht⟩ : ∃ a rest, (w.procs i).todo = a :: rest := by
    cases hx : (w.procs i).todo with
    | nil => exact absurd hx hne
    | cons a rest => exact ⟨a, rest, rfl⟩
  obtain ⟨hk, v', hs, _⟩ := h.next ht
  refine ⟨?_, ?_, ?_, ?_, ?_⟩
  · rw [hp]; intro hx; simp [RegistryTool.die] at hx
  · intro _
    rw [hp, hf]
    exact ⟨rfl, rfl, fun ho => statusTrue_die (statusTrue_of_ok (hs.ok.status ho) rfl rfl rfl)⟩
  · rw [hp]; exact h.undefined
  · rw [hp]; exact h.waited
  · rw [hp]; exact h.signalled

theorem Inv.step (ap : Apart os es) {f0 : Path → Option Text} {w : World} (h : ∀ i, Inv os es f0 w i) (op : Op)
    (hu : ∀ p c, op = .user p c → ∀ i, p ≠ tmpPath (os i) (es i) ∧ p ≠ (os i).statusFile) : ∀ i, Inv os es f0 (step w op) i := by
  intro i
  cases op with
  | user p c =>
    obtain ⟨h1, h2⟩ := hu p c rfl i
    exact (h i).of_eq rfl (by simp [RegistryTool.step, setFile, Ne.symm h1]) (by simp [RegistryTool.step, setFile, Ne.symm h2])
  | kill j =>
    by_cases hj : i = j
    · subst hj
      by_cases ht : (w.procs i).todo = []
      · exact (h i).of_eq (by simp [RegistryTool.step, setProc, ht]) rfl rfl
      · exact (h i).die ht rfl (by simp [RegistryTool.step, setProc, ht])
    · exact (h i).of_eq (by simp [RegistryTool.step, setProc, hj]) rfl rfl
  | signal j =>
    by_cases hj : i = j
    · subst hj
      have hp : (RegistryTool.step w (.signal i)).procs i = onSignal (w.procs i) := by simp [RegistryTool.step, setProc]
      unfold onSignal at hp
      split at hp
      · exact (h i).of_eq hp rfl rfl
      split at hp
      · rename_i ht _; exact (h i).die ht rfl hp
      split at hp
      · exact (h i).of_eq hp rfl rfl
      · rename_i hr
        have hv : viewOf os es (RegistryTool.step w (.signal i)) i = viewOf os es w i := by
          simp only [viewOf, hp]; rfl
        refine ⟨?_, ?_, ?_, ?_, ?_⟩
        · rw [hv, hp]; exact (h i).alive
        · rw [hp]; exact (h i).dead
        · rw [hp]; exact (h i).undefined
        · rw [hp]; exact fun _ => rfl
        · rw [hp]; exact fun _ => by simpa using hr
    · exact (h i).of_eq (by simp [RegistryTool.step, setProc, hj]) rfl rfl
  | event j =>
    by_cases hj : i = j
    · subst hj
      have hp : (RegistryTool.step w (.event i)).procs i = onEvent (w.procs i) := by simp [RegistryTool.step, setProc]
      unfold onEvent at hp
      split at hp
      · rename_i hg
        have hk : (w.procs i).killed = false := by
          cases hk : (w.procs i).killed
          · rfl
          · have := ((h i).dead hk).2.1; rw [this] at hg; simp at hg
        have hv : viewOf os es (RegistryTool.step w (.event i)) i = viewOf os es w i := by
          simp only [viewOf, hp]; rfl
        obtain ⟨v', hs, hc⟩ := (h i).alive hk
        have ok := hs.ok
        refine ⟨?_, ?_, ?_, ?_, ?_⟩
        · rw [hv, hp]; exact (h i).alive
        · rw [hp]; exact (h i).dead
        · rw [hp]; exact fun _ => ⟨ok.gone hg.2 hg.1, ok.uses (by simp [viewOf, hg.2])⟩
        · rw [hp]; exact (h i).waited
        · rw [hp]; exact (h i).signalled
      · exact (h i).of_eq hp rfl rfl
    · exact (h i).of_eq (by simp [RegistryTool.step, setProc, hj]) rfl rfl
  | run j =>
    cases ht : (w.procs j).todo with
    | nil => simpa [RegistryTool.step, ht] using h i
    | cons a rest =>
      obtain ⟨hk, v', hs, hc⟩ := (h j).next ht
      obtain ⟨ok, ha, hs'⟩ := hs.head
      by_cases hb : a = .wait ∧ (w.procs j).signalled = false
      · obtain ⟨rfl, hb⟩ := hb
        simpa [RegistryTool.step, ht, hb] using h i
      have hw : RegistryTool.step w (.run j) = { files := onFiles w.files a, procs := setProc w.procs j (onProc { w.procs j with todo := rest } a) } := by
        cases a
        case wait =>
          have : (w.procs j).signalled = true := by simpa using hb
          simp [RegistryTool.step, ht, this, onFiles]
        all_goals simp [RegistryTool.step, ht]
      rw [hw]
      by_cases hj : i = j
      · subst hj
        have hp : (setProc w.procs i (onProc { w.procs i with todo := rest } a)) i = onProc { w.procs i with todo := rest } a := by simp [setProc]
        obtain ⟨k1, k2, k3, k4⟩ := onProc_fields { w.procs i with todo := rest } a
        refine ⟨?_, ?_, ?_, ?_, ?_⟩
        · intro _
          rw [view_own ap w i a rest ha]
          simp only [hp, k4]
          exact ⟨v', hs', hc⟩
        · intro hx
          have e1 := congrArg Proc.killed hp
          rw [k1] at e1
          exact absurd ((hk.symm.trans e1.symm).trans hx) (by decide)
        · simp only [hp, k2]
          intro hx
          obtain ⟨q1, q2⟩ := (h i).undefined hx
          refine ⟨?_, q2⟩
          by_cases hwt : a = .wait
          · subst hwt; rfl
          · rw [onProc_waited _ _ hwt]; exact q1
        · simp only [hp, k3]
          intro hx
          by_cases hwt : a = .wait
          · subst hwt; simpa using hb
          · rw [onProc_waited _ _ hwt] at hx; exact (h i).waited hx
        · simp only [hp, k3]
          intro hx
          exact onProc_registered _ _ ((h i).signalled hx)
      · refine (h i).of_eq (by simp [setProc, hj]) ?_ ?_
        · exact untouched ha _ _ (fun e => hj (ap.tmps i j e)) (fun _ => ap.tmpStatus i j) (fun _ => ap.tmpGenerated i j)
        · refine untouched ha _ _ (fun e => ap.tmpStatus j i e.symm) (fun hn e => hj (ap.statuses j i hn e.symm).symm) (fun hn e => ?_)
          by_cases hs0 : (os i).statusFile = []
          · exact hn (by rw [← e, hs0])
          · exact ap.statusGenerated i j hs0 e

theorem Inv.run (ap : Apart os es) (f0 : Path → Option Text) (ops : List Op) (pol : Polite os es ops) : ∀ i, Inv os es f0 (run f0 os es ops) i := by
  have key : ∀ (ops : List Op) (w : World), (∀ i, Inv os es f0 w i) → Polite os es ops → ∀ i, Inv os es f0 (ops.foldl RegistryTool.step w) i := by
    intro ops
    induction ops with
    | nil => exact fun w h _ => h
    | cons op ops ih =>
      intro w h pol
      exact ih _ (Inv.step ap h op (fun p c => pol op (by simp) p c)) (fun x hx => pol x (by simp [hx]))
  exact key ops _ (Inv.init ap f0) pol

end SilKit.RegistryTool
namespace SilKit.RegistryTool
open SilKit SilKit.ConfigText SilKit.RegistryTool.Spec

variable {os : Nat → CommandLine} {es : Nat → Luck}

theorem hasJsonSuffix_iff (p : Path) : hasJsonSuffix p = true ↔ ['.', 'j', 's', 'o', 'n'] <:+ p := by
  have e0 : ".json".toList = ['.', 'j', 's', 'o', 'n'] := by decide
  simp only [hasJsonSuffix, e0, Bool.and_eq_true, decide_eq_true_eq, beq_iff_eq]
  constructor
  · rintro ⟨h1, h2⟩
    rw [← h2]; exact List.drop_suffix _ _
  · intro h
    have h1 : (['.', 'j', 's', 'o', 'n'] : List Char).length ≤ p.length := h.length_le
    obtain ⟨t, rfl⟩ := h
    exact ⟨h1, by simp⟩

theorem generatedText_complete (o : CommandLine) (e : Luck) (uri : Text) : IsCompleteText o e uri (generatedText o e uri) := by
  constructor <;> intro h
  · have := (hasJsonSuffix_iff o.generate).2 h
    simp [generatedText, this]
  · have : hasJsonSuffix o.generate = false := by
      cases hx : hasJsonSuffix o.generate
      · rfl
      · exact absurd ((hasJsonSuffix_iff o.generate).1 hx) h
    simp [generatedText, this]

/-- Only `rename` changes a file that is neither temporary nor a status file. -/
theorem step_file (ap : Apart os es) {f0 : Path → Option Text} {w : World} (inv : ∀ i, Inv os es f0 w i) (op : Op) (hop : ∀ p c, op ≠ .user p c) (p : Path)
    (hp : ∀ i, p ≠ tmpPath (os i) (es i) ∧ p ≠ (os i).statusFile) (hne : (step w op).files p ≠ w.files p) :
    ∃ i uri t, op = .run i ∧ p = (os i).generate ∧ (w.procs i).listening = some uri ∧ (step w op).files p = some t
      ∧ ((step w op).procs i).placed = true
      ∧ t <+: generatedText (os i) (es i) uri ∧ ((generatedText (os i) (es i) uri).length ≤ (es i).generated.pieces.sum → t = generatedText (os i) (es i) uri) := by
  cases op with
  | user q c => exact absurd rfl (hop q c)
  | kill j => exact absurd rfl hne
  | signal j => exact absurd rfl hne
  | event j => exact absurd rfl hne
  | run j =>
    cases ht : (w.procs j).todo with
    | nil => simp [step, ht] at hne
    | cons a rest =>
      obtain ⟨_, v', hs, _⟩ := (inv j).next ht
      obtain ⟨_, ha, _⟩ := hs.head
      by_cases hr : ∃ x y, a = .rename x y
      · obtain ⟨x, y, rfl⟩ := hr
        obtain ⟨rfl, rfl, h4, uri, t, h5, h6, h7, h8⟩ := ha
        have h6' : w.files (tmpPath (os j) (es j)) = some t := h6
        have e1 : step w (.run j) = World.mk (onFiles w.files (.rename (tmpPath (os j) (es j)) (os j).generate))
            (setProc w.procs j (onProc { w.procs j with todo := rest } (.rename (tmpPath (os j) (es j)) (os j).generate))) := by simp [step, ht]
        have hpg : p = (os j).generate := by
          refine Classical.byContradiction fun hx => hne ?_
          rw [e1]
          simp [onFiles, h6', setFile, hx, (hp j).1]
        refine ⟨j, uri, t, rfl, hpg, h5, ?_, ?_, h7, h8⟩
        · rw [e1]; simp [onFiles, h6', setFile, hpg]
        · rw [e1]; simp [setProc, onProc]
      · exfalso
        apply hne
        have hf : (step w (.run j)).files p = onFiles w.files a p ∨ (step w (.run j)).files p = w.files p := by
          cases a
          case wait =>
            right
            simp only [step, ht]
            split <;> rfl
          all_goals (left; simp [step, ht])
        rcases hf with hf | hf
        · rw [hf]
          cases a with
          | truncate q =>
            rcases ha with ⟨rfl, _⟩ | ⟨_, rfl⟩
            · simp [onFiles, setFile, (hp j).1]
            · simp [onFiles, setFile, (hp j).2]
          | append q t =>
            rcases ha with ⟨rfl, _⟩ | ⟨_, rfl⟩
            · simp [onFiles, setFile, (hp j).1]
            · simp [onFiles, setFile, (hp j).2]
          | remove q => obtain ⟨_, rfl⟩ := ha; simp [onFiles, setFile, (hp j).2]
          | rename x y => exact absurd ⟨x, y, rfl⟩ hr
          | _ => rfl
        · exact hf

theorem placed_mono (w : World) (op : Op) (i : Nat) (h : (w.procs i).placed = true) : ((step w op).procs i).placed = true := by
  have hpr : ∀ (p : Proc) (a : Act), p.placed = true → (onProc p a).placed = true := by intro p a hx; cases a <;> simp [onProc, hx]
  cases op with
  | user p c => exact h
  | kill j => simp only [step, setProc, die]; grind
  | signal j => simp only [step, setProc, onSignal, die]; grind
  | event j => simp only [step, setProc, onEvent]; grind
  | run j =>
    simp only [step]
    split
    · exact h
    · split
      · simp only [setProc]; split
        · subst_vars; simpa [onProc] using h
        · exact h
      · exact h
    · simp only [setProc]; split
      · subst_vars; exact hpr _ _ h
      · exact h

/-- A process whose promise is set is not held up any more. -/
theorem finishes (ap : Apart os es) {f0 : Path → Option Text} {w : World} (inv : ∀ i, Inv os es f0 w i) (i : Nat) (hk : (w.procs i).killed = false)
    (hs : (w.procs i).signalled = true) :
    let w' := (List.replicate (w.procs i).todo.length (Op.run i)).foldl step w
    (w'.procs i).todo = [] ∧ (w'.procs i).killed = false ∧ (w'.procs i).registered = true ∧ ∀ j, Inv os es f0 w' j := by
  generalize hn : (w.procs i).todo.length = n
  induction n generalizing w with
  | zero => exact ⟨List.eq_nil_of_length_eq_zero hn, hk, (inv i).signalled hs, inv⟩
  | succ n ih =>
    obtain ⟨a, rest, ht⟩ : ∃ a rest, (w.procs i).todo = a :: rest := by
      cases hx : (w.procs i).todo with
      | nil => rw [hx] at hn; cases hn
      | cons a rest => exact ⟨a, rest, rfl⟩
    have hw : step w (.run i) = { files := onFiles w.files a, procs := setProc w.procs i (onProc { w.procs i with todo := rest } a) } := by
      cases a
      case wait => simp [step, ht, hs, onFiles]
      all_goals simp [step, ht]
    obtain ⟨k1, k2, k3, k4⟩ := onProc_fields { w.procs i with todo := rest } a
    have hp : (step w (.run i)).procs i = onProc { w.procs i with todo := rest } a := by rw [hw]; simp [setProc]
    rw [List.replicate_succ, List.foldl_cons]
    refine ih (Inv.step ap inv (.run i) (by intro p c h; cases h)) ?_ ?_ ?_
    · rw [hp, k1]; exact hk
    · rw [hp, k3]; exact hs
    · rw [hp, k4]; rw [ht] at hn; simpa using hn

theorem ended {f0 : Path → Option Text} {w : World} {i : Nat} (inv : Inv os es f0 w i) (hk : (w.procs i).killed = false) (ht : (w.procs i).todo = []) :
    (w.procs i).code.isSome := by
  obtain ⟨v', hs, hc⟩ := inv.alive hk
  rw [ht] at hs
  have h2 := hs.2.1
  have e1 : viewOf os es w i = v' := h2
  rw [← e1] at hc; exact hc

theorem ok_of {f0 : Path → Option Text} {w : World} {i : Nat} (inv : Inv os es f0 w i) (hk : (w.procs i).killed = false) :
    Ok (os i) (es i) (f0 (os i).statusFile) (viewOf os es w i) := by
  obtain ⟨v', hs, _⟩ := inv.alive hk
  exact hs.ok

/-! ## Settings -/

theorem level_value (s : Text) (n : String) (l : Level) (h : (n, l) ∈ levelNames) (hs : s.map lower = n.toList) : levelFromString s = l := by
  simp only [levelNames, List.mem_cons, List.not_mem_nil, or_false, Prod.mk.injEq] at h
  rcases h with ⟨rfl, rfl⟩ | ⟨rfl, rfl⟩ | ⟨rfl, rfl⟩ | ⟨rfl, rfl⟩ | ⟨rfl, rfl⟩ | ⟨rfl, rfl⟩ | ⟨rfl, rfl⟩ <;> simp [levelFromString, hs]

/-- `settings` for any default values. -/
def genSettings (dl dd li : Text) (o : CommandLine) (f : FileSettings) : Settings :=
  let r := override (configureLogging {} (optionValue o.log li))
    (if o.enableDashboard then if !o.dashboardUri.isEmpty then (optionValue o.dashboardUri dd, !o.dashboardUri.isEmpty) else (dd, true)
      else (optionValue o.dashboardUri dd, !o.dashboardUri.isEmpty)).1
    (if o.enableDashboard then if !o.dashboardUri.isEmpty then (optionValue o.dashboardUri dd, !o.dashboardUri.isEmpty) else (dd, true)
      else (optionValue o.dashboardUri dd, !o.dashboardUri.isEmpty)).2 f
  let s := if r.1.listenUri.isEmpty then
    if (optionValue o.listenUri dl).isEmpty then { r.1 with listenUri := dl } else { r.1 with listenUri := optionValue o.listenUri dl }
    else r.1
  { s with dashboard := if r.2.2 then some r.2.1 else none }

theorem settings_gen (o : CommandLine) (f : FileSettings) :
    settings o f = genSettings "silkit://localhost:8500".toList "http://localhost:8082".toList "info".toList o f := rfl

set_option maxHeartbeats 2000000 in
theorem gen_facts (dl dd li : Text) (hdl : dl ≠ []) (o : CommandLine) (f : FileSettings) :
    (genSettings dl dd li o f).listenUri = firstGiven f.listenUri o.listenUri dl
    ∧ ((genSettings dl dd li o f).dashboard.isSome ↔ f.dashboardUri.isSome ∨ o.dashboardUri ≠ [] ∨ o.enableDashboard = true)
    ∧ (∀ u, f.dashboardUri = some u → (genSettings dl dd li o f).dashboard = some u)
    ∧ (∀ u, f.dashboardUri = none → (genSettings dl dd li o f).dashboard = some u → u = if o.dashboardUri ≠ [] then o.dashboardUri else dd)
    ∧ (genSettings dl dd li o f).enableDomainSockets = f.enableDomainSockets.getD true
    ∧ (f.sinks ≠ [] → (genSettings dl dd li o f).sinks = f.sinks)
    ∧ (f.sinks = [] → (genSettings dl dd li o f).sinks = [⟨.stdout, levelFromString (optionValue o.log li)⟩])
    ∧ (genSettings dl dd li o f).collectFromRemote = some (f.collectFromRemote.getD true)
    ∧ (genSettings dl dd li o f).flushLevel = .off
    ∧ (genSettings dl dd li o f).description = f.description := by
  obtain ⟨lu, du, lg, ed, ge, cf, sf, he, ve, di⟩ := o
  obtain ⟨de, flu, fds, fdu, fs, ffl, fc⟩ := f
  have hd : ∀ (x : Text), x.isEmpty = true ↔ x = [] := fun x => by cases x <;> simp
  refine ⟨?_, ?_, ?_, ?_, ?_, ?_, ?_, ?_, ?_, ?_⟩
  · cases flu with
    | none => cases lu <;> cases de <;> cases fs <;> cases fds <;> cases fc <;> simp [genSettings, override, configureLogging, optionValue, firstGiven, hdl]
    | some u => cases u <;> cases lu <;> cases de <;> cases fs <;> cases fds <;> cases fc <;>
        simp [genSettings, override, configureLogging, optionValue, firstGiven, hdl]
  · cases du <;> cases ed <;> cases fdu <;> simp [genSettings, override]
  · intro u hu; subst hu
    simp [genSettings, override]
  · intro u hu; dsimp only at hu; subst hu
    cases du <;> cases ed <;> simp [genSettings, override, optionValue] <;> exact fun h => h.symm
  · simp only [genSettings, override, configureLogging]
    cases fds <;> simp <;> (repeat' split) <;> simp_all
  · intro h
    cases fs with
    | nil => exact absurd rfl h
    | cons s fs =>
      simp only [genSettings, override, configureLogging]
      simp <;> (repeat' split) <;> simp_all
  · intro h; dsimp only at h; subst h
    simp only [genSettings, override, configureLogging]
    simp <;> (repeat' split) <;> simp_all
  · simp only [genSettings, override, configureLogging]
    cases fc <;> simp <;> (repeat' split) <;> simp_all
  · simp only [genSettings, override, configureLogging]
    simp <;> (repeat' split) <;> simp_all
  · simp only [genSettings, override, configureLogging]
    cases de <;> simp <;> (repeat' split) <;> simp_all

end SilKit.RegistryTool
