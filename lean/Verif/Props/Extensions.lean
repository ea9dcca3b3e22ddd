import Verif.Lemmas.Extensions
/-!
# C75: extensions

Model: `Model/Extensions.lean`, specification: `Spec/Extensions.lean`. `h` is any SIL Kit, `w` any operating system and file system, `name` and `hints` any texts.
-/
namespace SilKit.Props
open SilKit.Extensions SilKit.Extensions.Spec

/-- C75: an extension comes from a library with the version and the build of this SIL Kit, whatever is in the file system. -/
theorem C75_only_the_same_version (h : Host) (w : World) (name : Str) (hints : List Str) (p : Str) (i : Option Instance)
    (e : (load h w name hints).1 = .pointer p i) : ∃ lib, w.library p = some lib ∧ MadeFor h lib ∧ lib.create = some i := by
  unfold load at e
  cases hp : processPath w with
  | none => rw [hp] at e; cases e
  | some dir =>
    rw [hp] at e; dsimp only at e
    cases hf : findLibrary w name (hints ++ ["ENV:SILKIT_EXTENSION_PATH".toList, ['.'], dir]) with
    | none => rw [hf] at e; cases e
    | some paths =>
      rw [hf] at e; dsimp only at e
      obtain ⟨a, b, lib, _, _, h3, h4, _⟩ := search_pointer e
      obtain ⟨h5, h6⟩ := check_accepted h3
      exact ⟨lib, h5, h6, h4⟩

/-- What `load` searches in a calm world. -/
theorem load_calm {h : Host} {w : World} {name : Str} {hints : List Str} {dir : Str} (c : Calm w name hints dir) :
    load h w name hints = search h w (found w (files w name hints dir)) := by
  obtain ⟨c1, c2, c3, _⟩ := c
  have hdir : ¬ "ENV:".toList.isPrefixOf dir = true := by
    rcases c2 with c2 | c2
    · cases dir with
      | nil => simp at c2
      | cons x xs =>
        simp only [List.head?_cons, Option.some.injEq] at c2
        subst c2
        intro hx
        rw [List.isPrefixOf_iff_prefix] at hx
        obtain ⟨t, ht⟩ := hx
        simp at ht
    · subst c2; decide
  have hf := findLibrary_eq w name (hints ++ ["ENV:SILKIT_EXTENSION_PATH".toList, ['.'], dir])
  rw [directories_all w hints dir hdir, filesOf_eq] at hf
  unfold load
  rw [c1]; dsimp only
  cases hr : findLibrary w name (hints ++ ["ENV:SILKIT_EXTENSION_PATH".toList, ['.'], dir]) with
  | none =>
    obtain ⟨f, hf1, hf2⟩ := hf.2.mp hr
    exact absurd hf2 (c3 f hf1)
  | some paths =>
    dsimp only
    rw [hf.1 paths hr]

/-- Files before the first suitable one are passed over. -/
theorem passed_over {h : Host} {w : World} {name : Str} {hints : List Str} {dir : Str} (c : Calm w name hints dir) (fs : List Str)
    (hn : ∀ f ∈ fs, ¬ Suitable h w f) : ∀ x ∈ found w fs, check h w x = .unreadable ∨ check h w x = .rejected := by
  intro x hx
  unfold found at hx
  obtain ⟨f, hf, rfl⟩ := List.mem_map.mp hx
  obtain ⟨hf1, hf2⟩ := List.mem_filter.mp hf
  refine (check_suitable (fun lib d => c.2.2.2 _ lib d)).2 ?_
  rintro ⟨lib, hl, hm⟩
  exact hn f hf1 ⟨by simpa using hf2, lib, hl, hm⟩

/-- C75: the first suitable file in the documented order decides: if its library is complete, its extension is loaded. -/
theorem C75_first_match (h : Host) (w : World) (name : Str) (hints : List Str) (dir : Str) (c : Calm w name hints dir) (a b : List Str) (f : Str)
    (e : files w name hints dir = a ++ f :: b) (ha : ∀ x ∈ a, ¬ Suitable h w x) (lib : Library) (hp : w.present f = some true)
    (hl : w.library (absolute w f) = some lib) (hm : MadeFor h lib) (i : Instance) (hi : lib.create = some (some i)) (hr : lib.release = true) :
    (load h w name hints).1 = .pointer (absolute w f) (some i) := by
  have hc : check h w (absolute w f) = .accepted lib := (check_suitable (fun lib d => c.2.2.2 _ lib d)).1 lib hl hm
  rw [load_calm c, e, found_append]
  have : found w (f :: b) = absolute w f :: found w b := by simp [found, hp]
  rw [this, search_first (passed_over c a ha) hc]
  unfold search
  rw [hc]; dsimp only
  rw [hi]; dsimp only
  rw [hr]; rfl

/-- C75: the request fails if and only if there is no suitable file, when all suitable libraries are complete. -/
theorem C75_fails_without_match (h : Host) (w : World) (name : Str) (hints : List Str) (dir : Str) (c : Calm w name hints dir)
    (hcomp : ∀ f ∈ files w name hints dir, Suitable h w f → ∀ lib, w.library (absolute w f) = some lib → Complete lib) :
    ((load h w name hints).1 = .extensionError ↔ ∀ f ∈ files w name hints dir, ¬ Suitable h w f) ∧
    ((load h w name hints).1 = .extensionError ∨ ∃ f ∈ files w name hints dir, Suitable h w f ∧ ∃ i, (load h w name hints).1 = .pointer (absolute w f) (some i)) := by
  rcases split_first (files w name hints dir) (Suitable h w) (fun p => Classical.em _) with hn | ⟨a, f, b, e, ha, hf⟩
  · have he : (load h w name hints).1 = .extensionError := by
      rw [load_calm c]
      exact search_none (passed_over c _ hn)
    exact ⟨⟨fun _ => hn, fun _ => he⟩, .inl he⟩
  · have hf' := hf
    obtain ⟨hp, lib, hl, hm⟩ := hf'
    have hmem : f ∈ files w name hints dir := by rw [e]; simp
    obtain ⟨⟨i, hi⟩, hr⟩ := hcomp f hmem hf lib hl
    have := C75_first_match h w name hints dir c a b f e ha lib hp hl hm i hi hr
    refine ⟨⟨fun hx => ?_, fun hx => absurd hf (hx f hmem)⟩, .inr ⟨f, hmem, hf, i, this⟩⟩
    rw [this] at hx
    cases hx

/-- A SIL Kit, two libraries, and a world with files in some places. -/
def exHost : Host := { major := 5, minor := 0, patch := 1, cxx := 201703, compiler := 12, multithread := 1, debug := 0, system := "Linux".toList }
def exLib (patch : Nat) (id : Nat) : Library :=
  { descriptor := some { major := 5, minor := 0, patch := patch, system := some "Linux".toList, build := [201703, 12, 1, 0, 0] }
    create := some (some { id := id, provides := [.sink, .replay] }), release := true }
def exWorld (fs : List (Str × Library)) : World :=
  { env := fun v => if v = "MY".toList then some "/opt/my".toList else none
    present := fun p => some (fs.any (fun f => f.1 == p))
    library := fun p => (fs.find? (fun f => f.1 == p)).map (·.2)
    cwd := "/work".toList
    program := some "/usr/bin/tool".toList }

/-- An old library is passed over, and the one in the next directory is loaded. -/
def exFiles : List (Str × Library) := [("/ext/libX.so".toList, exLib 0 7), ("/opt/my/libX.so".toList, exLib 1 8), ("/usr/bin/X.so".toList, exLib 1 9)]

example : load exHost (exWorld exFiles) ['X'] ["/ext".toList, "ENV:MY".toList] =
    (.pointer "/opt/my/libX.so".toList (some { id := 8, provides := [.sink, .replay] }), ["/ext/libX.so".toList, "/opt/my/libX.so".toList]) := by decide +kernel

/-- The working directory, and a hint relative to it. -/
example : (load exHost (exWorld [("./libX.so".toList, exLib 1 7), ("/work/./libX.so".toList, exLib 1 7)]) ['X'] []).1
    = .pointer "/work/./libX.so".toList (some { id := 7, provides := [.sink, .replay] }) ∧
    (load exHost (exWorld [("../e/X".toList, exLib 1 7), ("/work/../e/X".toList, exLib 1 7)]) ['X'] ["../e/".toList]).1
    = .pointer "/work/../e/X".toList (some { id := 7, provides := [.sink, .replay] }) := by decide +kernel

theorem ex_mem {fs : List (Str × Library)} {p : Str} {lib : Library} (h : (exWorld fs).library p = some lib) : ∃ q, (q, lib) ∈ fs := by
  simp only [exWorld, Option.map_eq_some_iff] at h
  obtain ⟨⟨q, l⟩, h1, h2⟩ := h
  subst h2
  exact ⟨q, List.mem_of_find?_eq_some h1⟩

example : Calm (exWorld exFiles) ['X'] ["/ext".toList, "ENV:MY".toList] "/usr/bin".toList := by
  refine ⟨by decide, .inl (by decide), fun p _ => by simp [exWorld], ?_⟩
  intro p lib d hl hd
  obtain ⟨q, hq⟩ := ex_mem hl
  have : ∀ x ∈ exFiles, ∀ d, x.2.descriptor = some d → d.system ≠ none := by
    intro x hx d hd
    simp only [exFiles, List.mem_cons, List.not_mem_nil, or_false] at hx
    rcases hx with rfl | rfl | rfl <;> (injection hd with hd; subst hd; simp)
  exact this _ hq d hd

/-- C75: an extension that was given out stays: every later request for the same kind of object gets the same object, whatever the file system is then and whatever
happened in between, and no library is opened for it. -/
theorem C75_same_extension_later (h : Host) (rs mid : List Request) (r r' : Request) (p : Str) (i : Instance)
    (e : (request h (run h rs).1 r).2 = .extension p i) (hf : r'.factory = r.factory) (hn : r'.name = r.name) :
    (request h (run h (rs ++ [r] ++ mid)).1 r').2 = .extension p i ∧
    (run h (rs ++ [r] ++ mid ++ [r'])).1.opened = (run h (rs ++ [r] ++ mid)).1.opened := by
  have keep : ∀ (s : Process) (r : Request) (f : Factory) (x : Str × Str × Instance), s.caches f = some x → (request h s r).1.caches f = some x := by
    intro s r f x hx
    unfold request
    cases hc : s.caches r.factory with
    | some y =>
      obtain ⟨n, q, j⟩ := y
      dsimp only
      split <;> exact hx
    | none =>
      dsimp only
      have hfr : ¬ f = r.factory := fun hh => by rw [hh, hc] at hx; cases hx
      split <;> first | exact hx | (simp only [if_neg hfr]; exact hx)
  have hc1 := request_extension e
  have hc2 : (run h (rs ++ [r] ++ mid)).1.caches r.factory = some (r.name, p, i) := by
    induction mid using ConfigFiles.snoc_induction with
    | nil => rw [List.append_nil, run_snoc]; exact hc1.1
    | snoc mid x ih => rw [← List.append_assoc, run_snoc]; exact keep _ _ _ _ ih
  have hreq : request h (run h (rs ++ [r] ++ mid)).1 r' = ((run h (rs ++ [r] ++ mid)).1, .extension p i) := by
    generalize (run h (rs ++ [r] ++ mid)).1 = s at hc2 ⊢
    unfold request
    rw [hf, hc2]; dsimp only
    rw [if_pos hn, castTo, if_pos hc1.2]
  rw [run_snoc, hreq]
  exact ⟨rfl, rfl⟩

def exRequest (f : Factory) (hints : List Str) (fs : List (Str × Library)) : Request := { factory := f, name := ['X'], hints := hints, world := exWorld fs }

example : (run exHost [exRequest .sink ["/ext".toList, "ENV:MY".toList] exFiles, exRequest .replay ["/usr/bin".toList] exFiles, exRequest .sink [] []]).2
    = [.extension "/opt/my/libX.so".toList { id := 8, provides := [.sink, .replay] }, .extension "/usr/bin/X.so".toList { id := 9, provides := [.sink, .replay] },
       .extension "/opt/my/libX.so".toList { id := 8, provides := [.sink, .replay] }] := by decide +kernel

/-- C75: in every history, an extension that is given out has the interface that was asked for and comes from a library of this SIL Kit's version, as some request for
this kind of object has found it. -/
theorem C75_extensions_are_real (h : Host) (rs : List Request) (p : Str) (i : Instance) (r : Request) (e : (request h (run h rs).1 r).2 = .extension p i) :
    r.factory ∈ i.provides ∧ ∃ r' ∈ rs ++ [r], r'.factory = r.factory ∧ r'.name = r.name ∧
      ∃ lib, r'.world.library p = some lib ∧ MadeFor h lib ∧ lib.create = some (some i) := by
  have inv : ∀ rs : List Request, ∀ f n p i, (run h rs).1.caches f = some (n, p, i) →
      ∃ r' ∈ rs, r'.factory = f ∧ r'.name = n ∧ ∃ lib, r'.world.library p = some lib ∧ MadeFor h lib ∧ lib.create = some (some i) := by
    intro rs
    induction rs using ConfigFiles.snoc_induction with
    | nil => intro f n p i hx; cases hx
    | snoc rs x ih =>
      intro f n p i hx
      rw [run_snoc] at hx
      dsimp only at hx
      have old : (run h rs).1.caches f = some (n, p, i) → ∃ r' ∈ rs ++ [x], r'.factory = f ∧ r'.name = n ∧
          ∃ lib, r'.world.library p = some lib ∧ MadeFor h lib ∧ lib.create = some (some i) := fun hh => by
        obtain ⟨r', hm, hr⟩ := ih f n p i hh
        exact ⟨r', List.mem_append_left _ hm, hr⟩
      unfold request at hx
      cases hc : (run h rs).1.caches x.factory with
      | some y =>
        obtain ⟨n', q, j⟩ := y
        rw [hc] at hx; dsimp only at hx
        split at hx <;> exact old hx
      | none =>
        rw [hc] at hx; dsimp only at hx
        split at hx
        · rename_i q j hl
          dsimp only at hx
          split at hx
          · rename_i hfx
            injection hx with hx
            simp only [Prod.mk.injEq] at hx
            obtain ⟨rfl, rfl, rfl⟩ := hx
            exact ⟨x, by simp, hfx.symm, rfl, C75_only_the_same_version h x.world x.name x.hints _ _ hl⟩
          · exact old hx
        all_goals exact old hx
  have hs := inv (rs ++ [r]) r.factory r.name p i
  rw [run_snoc] at hs
  have hc1 := request_extension e
  exact ⟨hc1.2, hs hc1.1⟩

/-- C75 (negation): a library without `CreateExtension` ends the search, although the next one is complete. -/
theorem C75_incomplete_library_hides_others :
    (load exHost (exWorld [("/ext/libX.so".toList, { exLib 1 7 with create := none }), ("/usr/bin/libX.so".toList, exLib 1 8)]) ['X'] ["/ext".toList]).1 = .extensionError ∧
    (load exHost (exWorld [("/usr/bin/libX.so".toList, exLib 1 8)]) ['X'] ["/ext".toList]).1
      = .pointer "/usr/bin/libX.so".toList (some { id := 8, provides := [.sink, .replay] }) := by decide +kernel

/-- C75 (negation): if the constructor of the extension throws, which `CreateExtension` reports with a null pointer, the null pointer is dereferenced. -/
theorem C75_failed_constructor_is_undefined :
    (run exHost [exRequest .sink ["/ext".toList] [("/ext/libX.so".toList, { exLib 1 7 with create := some none })]]).2 = [.undefined] := by decide +kernel

/-- C75 (negation): a matching descriptor without a system name is turned into a string from a null pointer. -/
theorem C75_missing_system_name_is_undefined :
    (run exHost [exRequest .sink ["/ext".toList] [("/ext/libX.so".toList,
      { exLib 1 7 with descriptor := some { major := 5, minor := 0, patch := 1, system := none, build := [201703, 12, 1, 0, 0] } })]]).2 = [.undefined] := by
  decide +kernel

/-- C75 (negation): rejected libraries stay open, and every further request opens them again. -/
theorem C75_rejected_libraries_stay_open :
    (run exHost [exRequest .sink ["/ext".toList] [("/ext/libX.so".toList, exLib 0 7)], exRequest .sink ["/ext".toList] [("/ext/libX.so".toList, exLib 0 7)]]).1.opened
      = ["/ext/libX.so".toList, "/ext/libX.so".toList] ∧
    (run exHost [exRequest .sink ["/ext".toList] [("/ext/libX.so".toList, exLib 0 7)], exRequest .sink ["/ext".toList] [("/ext/libX.so".toList, exLib 0 7)]]).2
      = [.extensionError, .extensionError] := by decide +kernel

/-- C75 (negation): a directory that can not be examined, even after the one with the library, makes every request fail, with another exception; so does a path of the
running program of at least 4096 characters. -/
theorem C75_unreadable_directory_fails (h : Host) (w : World) (name : Str) (hints : List Str) :
    (∀ dir hint, hint ∈ hints → ¬ "ENV:".toList.isPrefixOf hint = true → w.present (join hint name) = none → processPath w = some dir →
      load h w name hints = (.otherException, [])) ∧
    (∀ p, w.program = some p → 4096 ≤ p.length → load h w name hints = (.otherException, [])) := by
  constructor
  · intro dir hint hm he hn hp
    have hf := (findLibrary_eq w name (hints ++ ["ENV:SILKIT_EXTENSION_PATH".toList, ['.'], dir])).2
    have : findLibrary w name (hints ++ ["ENV:SILKIT_EXTENSION_PATH".toList, ['.'], dir]) = none := by
      rw [hf]
      refine ⟨join hint name, ?_, hn⟩
      unfold filesOf
      rw [List.mem_flatMap]
      refine ⟨hint, ?_, by simp [candidates]⟩
      unfold directories
      rw [List.mem_filterMap]
      exact ⟨hint, List.mem_append_left _ hm, by rw [if_neg he]⟩
    unfold load
    rw [hp]; dsimp only
    rw [this]
  · intro p hp hl
    unfold load processPath
    rw [hp]; dsimp only
    rw [if_neg (by unfold pathMax; omega)]

example : load exHost { exWorld exFiles with present := fun p => if p = "/secret/X".toList then none else (exWorld exFiles).present p } ['X']
    ["ENV:MY".toList, "/secret".toList] = (.otherException, []) := by decide +kernel

end SilKit.Props
