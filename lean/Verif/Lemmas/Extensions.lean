import Verif.Spec.Extensions
import Verif.Lemmas.ConfigFiles
namespace SilKit.Extensions
open Spec

theorem buildCompatible_iff (h : Host) (b : List Nat) : buildCompatible h.build b = true ↔
    b.getD 0 0 = h.cxx ∧ b.getD 1 0 = h.compiler ∧ b.getD 2 0 = h.multithread ∧ b.getD 3 0 = h.debug ∧ b.getD 4 0 = 0 := by
  simp only [buildCompatible, Host.build, List.range, List.range.loop, List.foldl_cons, List.foldl_nil, Bool.true_and, Bool.and_eq_true, beq_iff_eq]
  simp only [List.getD_cons_zero, List.getD_cons_succ]
  constructor
  · rintro ⟨⟨⟨⟨h1, h2⟩, h3⟩, h4⟩, h5⟩; exact ⟨h1.symm, h2.symm, h3.symm, h4.symm, h5.symm⟩
  · rintro ⟨h1, h2, h3, h4, h5⟩; exact ⟨⟨⟨⟨h1.symm, h2.symm⟩, h3.symm⟩, h4.symm⟩, h5.symm⟩

theorem check_accepted {h : Host} {w : World} {p : Str} {lib : Library} (e : check h w p = .accepted lib) : w.library p = some lib ∧ MadeFor h lib := by
  unfold check at e
  cases hl : w.library p with
  | none => rw [hl] at e; cases e
  | some l =>
    rw [hl] at e; dsimp only at e
    cases hd : l.descriptor with
    | none => rw [hd] at e; cases e
    | some d =>
      rw [hd] at e; dsimp only at e
      split at e
      · cases e
      · rename_i hv
        split at e
        · cases e
        · rename_i hb
          split at e
          · cases e
          · injection e with e
            subst e
            simp only [ne_eq, not_or, Decidable.not_not] at hv
            simp only [Bool.not_eq_true', Bool.not_eq_false] at hb
            exact ⟨rfl, d, hd, by rw [hv.1, hv.2.1, hv.2.2], (buildCompatible_iff h d.build).mp hb⟩

/-- Whether a library made for this SIL Kit can be loaded from `p`. -/
theorem check_suitable {h : Host} {w : World} {p : Str} (hs : ∀ lib d, w.library p = some lib → lib.descriptor = some d → d.system ≠ none) :
    (∀ lib, w.library p = some lib → MadeFor h lib → check h w p = .accepted lib) ∧
    ((¬ ∃ lib, w.library p = some lib ∧ MadeFor h lib) → check h w p = .unreadable ∨ check h w p = .rejected) := by
  constructor
  · rintro lib hl ⟨d, hd, hv, hb⟩
    have hb' := (buildCompatible_iff h d.build).mpr hb
    simp only [Prod.mk.injEq] at hv
    unfold check
    rw [hl]; dsimp only
    rw [hd]; dsimp only
    rw [if_neg (by simp [hv.1, hv.2.1, hv.2.2]), if_neg (by simp [hb'])]
    cases hsys : d.system with
    | none => exact absurd hsys (hs lib d hl hd)
    | some t => rfl
  · intro hn
    unfold check
    cases hl : w.library p with
    | none => exact .inl rfl
    | some lib =>
      dsimp only
      cases hd : lib.descriptor with
      | none => exact .inr rfl
      | some d =>
        dsimp only
        split
        · exact .inr rfl
        · rename_i hv
          split
          · exact .inr rfl
          · rename_i hb
            simp only [ne_eq, not_or, Decidable.not_not] at hv
            simp only [Bool.not_eq_true', Bool.not_eq_false] at hb
            exact absurd ⟨lib, hl, d, hd, by rw [hv.1, hv.2.1, hv.2.2], (buildCompatible_iff h d.build).mp hb⟩ hn

/-- The paths that `FindLibrary` gives for some files. -/
def found (w : World) (fs : List Str) : List Str := (fs.filter (fun f => w.present f == some true)).map (absolute w)

theorem found_append (w : World) (a b : List Str) : found w (a ++ b) = found w a ++ found w b := by simp [found]

theorem inDirectory_eq (w : World) (dir : Str) (cs : List Str) :
    (∀ r, inDirectory w dir cs = some r → r = found w (cs.map (join dir))) ∧
    (inDirectory w dir cs = none ↔ ∃ f ∈ cs.map (join dir), w.present f = none) := by
  induction cs with
  | nil => exact ⟨fun r h => by injection h with h; exact h.symm, by simp [inDirectory]⟩
  | cons c cs ih =>
    unfold inDirectory
    cases hp : w.present (join dir c) with
    | none => exact ⟨fun r h => (by cases h), by simp [hp]⟩
    | some b =>
      dsimp only
      refine ⟨fun r h => ?_, ?_⟩
      · rw [Option.map_eq_some_iff] at h
        obtain ⟨rest, hr, rfl⟩ := h
        rw [ih.1 rest hr]
        cases b <;> simp [found, hp]
      · rw [Option.map_eq_none_iff, ih.2]
        simp [hp]

def filesOf (name : Str) (dirs : List Str) : List Str := dirs.flatMap (fun dir => (candidates name).map (join dir))

theorem isEnv (hint : Str) : hint.take 4 = "ENV:".toList ↔ "ENV:".toList.isPrefixOf hint = true := by
  rw [List.isPrefixOf_iff_prefix, List.prefix_iff_eq_take]
  exact eq_comm

theorem findLibrary_eq (w : World) (name : Str) (hints : List Str) :
    (∀ r, findLibrary w name hints = some r → r = found w (filesOf name (directories w hints))) ∧
    (findLibrary w name hints = none ↔ ∃ f ∈ filesOf name (directories w hints), w.present f = none) := by
  induction hints with
  | nil => exact ⟨fun r h => by injection h with h; exact h.symm, by simp [findLibrary, directories, filesOf]⟩
  | cons hint hints ih =>
    have step : ∀ dir, (∀ r, (match inDirectory w dir (candidates name) with | none => none | some here => (findLibrary w name hints).map (here ++ ·)) = some r →
          r = found w (filesOf name (dir :: directories w hints))) ∧
        ((match inDirectory w dir (candidates name) with | none => none | some here => (findLibrary w name hints).map (here ++ ·)) = none ↔
          ∃ f ∈ filesOf name (dir :: directories w hints), w.present f = none) := by
      intro dir
      have hd := inDirectory_eq w dir (candidates name)
      cases hi : inDirectory w dir (candidates name) with
      | none =>
        refine ⟨fun r h => (by cases h), ⟨fun _ => ?_, fun _ => rfl⟩⟩
        obtain ⟨f, hf, hfn⟩ := hd.2.mp hi
        exact ⟨f, by unfold filesOf; rw [List.flatMap_cons]; exact List.mem_append_left _ hf, hfn⟩
      | some here =>
        dsimp only
        refine ⟨fun r h => ?_, ?_⟩
        · rw [Option.map_eq_some_iff] at h
          obtain ⟨rest, hr, rfl⟩ := h
          rw [ih.1 rest hr, hd.1 here hi]
          unfold filesOf
          rw [List.flatMap_cons, found_append]
        · rw [Option.map_eq_none_iff, ih.2]
          have hn : ¬ ∃ f ∈ (candidates name).map (join dir), w.present f = none := by rw [← hd.2, hi]; simp
          unfold filesOf
          rw [List.flatMap_cons]
          constructor
          · rintro ⟨f, hf, hx⟩; exact ⟨f, List.mem_append_right _ hf, hx⟩
          · rintro ⟨f, hf, hx⟩
            rcases List.mem_append.mp hf with hf | hf
            · exact absurd ⟨f, hf, hx⟩ hn
            · exact ⟨f, hf, hx⟩
    unfold findLibrary
    by_cases he : hint.take 4 = "ENV:".toList
    · rw [if_pos he]
      have he' := (isEnv hint).mp he
      cases hv : w.env (hint.drop 4) with
      | none =>
        have : directories w (hint :: hints) = directories w hints := by
          unfold directories; rw [List.filterMap_cons, if_pos he', hv]
        rw [this]; exact ih
      | some dir =>
        have : directories w (hint :: hints) = dir :: directories w hints := by
          unfold directories; rw [List.filterMap_cons, if_pos he', hv]
        rw [this]; exact step dir
    · rw [if_neg he]
      have he' : ¬ "ENV:".toList.isPrefixOf hint = true := fun h => he ((isEnv hint).mpr h)
      have : directories w (hint :: hints) = hint :: directories w hints := by
        unfold directories; rw [List.filterMap_cons, if_neg he']
      rw [this]; exact step hint

theorem directories_all (w : World) (hints : List Str) (dir : Str) (hdir : ¬ "ENV:".toList.isPrefixOf dir = true) :
    directories w (hints ++ ["ENV:SILKIT_EXTENSION_PATH".toList, ['.'], dir]) = searched w hints dir := by
  have h1 : "ENV:".toList.isPrefixOf "ENV:SILKIT_EXTENSION_PATH".toList = true := by decide
  have h2 : ¬ "ENV:".toList.isPrefixOf ['.'] = true := by decide
  have h3 : ("ENV:SILKIT_EXTENSION_PATH".toList).drop 4 = "SILKIT_EXTENSION_PATH".toList := by decide
  unfold directories searched
  rw [List.filterMap_append, List.append_assoc]
  congr 1
  rw [List.filterMap_cons, if_pos h1, h3]
  cases w.env "SILKIT_EXTENSION_PATH".toList <;> simp only [List.filterMap_cons, if_neg h2, if_neg hdir, List.filterMap_nil] <;> rfl

theorem filesOf_eq (w : World) (name : Str) (hints : List Str) (dir : Str) : filesOf name (searched w hints dir) = files w name hints dir := by
  unfold filesOf files candidates
  have e1 : ∀ x : Str, x ++ "d".toList ++ ".so".toList = x ++ "d.so".toList := by
    intro x; rw [List.append_assoc]; rfl
  simp only [e1]

/-- What the loop over the paths does. -/
theorem search_pointer {h : Host} {w : World} {ps : List Str} {p : Str} {i : Option Instance} (e : (search h w ps).1 = .pointer p i) :
    ∃ a b lib, ps = a ++ p :: b ∧ (∀ x ∈ a, check h w x = .unreadable ∨ check h w x = .rejected) ∧ check h w p = .accepted lib ∧ lib.create = some i ∧
      lib.release = true := by
  induction ps with
  | nil => cases e
  | cons x ps ih =>
    unfold search at e
    cases hc : check h w x with
    | unreadable =>
      rw [hc] at e; dsimp only at e
      obtain ⟨a, b, lib, h1, h2, h3⟩ := ih e
      exact ⟨x :: a, b, lib, by rw [h1]; rfl, by
        intro y hy
        rcases List.mem_cons.mp hy with rfl | hy
        · simp [hc]
        · exact h2 y hy, h3⟩
    | rejected =>
      rw [hc] at e; dsimp only at e
      obtain ⟨a, b, lib, h1, h2, h3⟩ := ih e
      exact ⟨x :: a, b, lib, by rw [h1]; rfl, by
        intro y hy
        rcases List.mem_cons.mp hy with rfl | hy
        · simp [hc]
        · exact h2 y hy, h3⟩
    | undefined => rw [hc] at e; cases e
    | accepted lib =>
      rw [hc] at e; dsimp only at e
      cases hcr : lib.create with
      | none => rw [hcr] at e; cases e
      | some inst =>
        rw [hcr] at e; dsimp only at e
        split at e
        · rename_i hr
          injection e with e1 e2
          subst e1; subst e2
          exact ⟨[], ps, lib, rfl, by simp, hc, hcr, hr⟩
        · cases e

/-- If nothing is undefined, the first accepted library decides. -/
theorem search_first {h : Host} {w : World} {a b : List Str} {p : Str} {lib : Library}
    (ha : ∀ x ∈ a, check h w x = .unreadable ∨ check h w x = .rejected) (hp : check h w p = .accepted lib) :
    (search h w (a ++ p :: b)).1 = (search h w [p]).1 := by
  induction a with
  | nil =>
    rw [List.nil_append]
    unfold search
    rw [hp]
  | cons x a ih =>
    have := ih (fun y hy => ha y (List.mem_cons_of_mem _ hy))
    rw [List.cons_append]
    rcases ha x List.mem_cons_self with hx | hx
    · rw [show search h w (x :: (a ++ p :: b)) = search h w (a ++ p :: b) by rw [search, hx]]
      exact this
    · rw [show (search h w (x :: (a ++ p :: b))).1 = (search h w (a ++ p :: b)).1 by rw [search, hx]]
      exact this

theorem search_none {h : Host} {w : World} {ps : List Str}
    (ha : ∀ x ∈ ps, check h w x = .unreadable ∨ check h w x = .rejected) : (search h w ps).1 = .extensionError := by
  induction ps with
  | nil => rfl
  | cons x a ih =>
    have := ih (fun y hy => ha y (List.mem_cons_of_mem _ hy))
    rcases ha x List.mem_cons_self with hx | hx
    · rw [show search h w (x :: a) = search h w a by rw [search, hx]]; exact this
    · rw [show (search h w (x :: a)).1 = (search h w a).1 by rw [search, hx]]; exact this

/-- Either all paths are passed over, or one decides. -/
theorem split_first (ps : List Str) (Q : Str → Prop) (hQ : ∀ p, Q p ∨ ¬ Q p) :
    (∀ x ∈ ps, ¬ Q x) ∨ ∃ a p b, ps = a ++ p :: b ∧ (∀ x ∈ a, ¬ Q x) ∧ Q p := by
  induction ps with
  | nil => left; simp
  | cons x ps ih =>
    rcases hQ x with hx | hx
    · exact .inr ⟨[], x, ps, rfl, by simp, hx⟩
    · rcases ih with ih | ⟨a, p, b, rfl, h2, h3⟩
      · left; intro y hy; rcases List.mem_cons.mp hy with rfl | hy
        · exact hx
        · exact ih y hy
      · right; refine ⟨x :: a, p, b, rfl, ?_, h3⟩
        intro y hy; rcases List.mem_cons.mp hy with rfl | hy
        · exact hx
        · exact h2 y hy

theorem run_snoc (h : Host) (rs : List Request) (r : Request) :
    run h (rs ++ [r]) = ((request h (run h rs).1 r).1, (run h rs).2 ++ [(request h (run h rs).1 r).2]) := by
  simp [run, List.foldl_append]

/-- An extension that is given out is in the cache. -/
theorem request_extension {h : Host} {s : Process} {r : Request} {p : Str} {i : Instance} (e : (request h s r).2 = .extension p i) :
    (request h s r).1.caches r.factory = some (r.name, p, i) ∧ r.factory ∈ i.provides := by
  revert e
  unfold request
  cases hc : s.caches r.factory with
  | some y =>
    obtain ⟨n, q, j⟩ := y
    dsimp only
    split
    · rename_i hnn
      intro e
      unfold castTo at e
      dsimp only at e
      split at e
      · rename_i hpv
        injection e with e1 e2
        subst e1; subst e2
        exact ⟨by rw [hc, hnn], hpv⟩
      · cases e
    · intro e; cases e
  | none =>
    dsimp only
    split
    · intro e
      unfold castTo at e
      dsimp only at e
      split at e
      · rename_i hpv
        injection e with e1 e2
        subst e1; subst e2
        exact ⟨by simp, hpv⟩
      · cases e
    all_goals (intro e; cases e)

end SilKit.Extensions
