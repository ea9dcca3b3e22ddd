import Verif.Spec.ConfigFiles
/-!
# Lemmas about including and merging configuration files
-/
namespace SilKit.ConfigFiles
open Spec

theorem snoc_induction {α : Type} {motive : List α → Prop} (nil : motive []) (snoc : ∀ l a, motive l → motive (l ++ [a])) : ∀ l, motive l := by
  intro l
  rw [← List.reverse_reverse l]
  induction l.reverse with
  | nil => exact nil
  | cons a r ih => rw [List.reverse_cons]; exact snoc _ _ ih

theorem loop_append {α β : Type} (f : β → α → Res β) (b : β) (as bs : List α) : loop f b (as ++ bs) = (loop f b as).bind (fun c => loop f c bs) := by
  induction as generalizing b with
  | nil => rfl
  | cons a as ih =>
    show (f b a).bind (fun b' => loop f b' (as ++ bs)) = ((f b a).bind (fun b' => loop f b' as)).bind (fun c => loop f c bs)
    cases f b a with
    | ok c => exact ih c
    | «throw» m => rfl
    | ub m => rfl

theorem loop_snoc {α β : Type} (f : β → α → Res β) (b : β) (as : List α) (a : α) : loop f b (as ++ [a]) = (loop f b as).bind (fun c => f c a) := by
  rw [loop_append]
  cases loop f b as with
  | ok c => simp only [Res.bind, loop]; cases f c a <;> rfl
  | «throw» m => rfl
  | ub m => rfl

/-- A loop that keeps `R` as long as `P` holds of what it has seen, and throws otherwise. -/
theorem loop_spec {α β : Type} {f : β → α → Res β} {b0 : β} {P : List α → Prop} {R : List α → β → Prop} (hp : P []) (hr : R [] b0)
    (mono : ∀ as a, P (as ++ [a]) → P as)
    (step : ∀ as b a, P as → R as b → (P (as ++ [a]) → ∃ b', f b a = .ok b' ∧ R (as ++ [a]) b') ∧ (¬ P (as ++ [a]) → ∃ m, f b a = .throw m)) (as : List α) :
    (P as → ∃ b, loop f b0 as = .ok b ∧ R as b) ∧ (¬ P as → ∃ m, loop f b0 as = .throw m) := by
  induction as using snoc_induction with
  | nil => exact ⟨fun _ => ⟨b0, rfl, hr⟩, fun h => absurd hp h⟩
  | snoc as a ih =>
    rw [loop_snoc]
    by_cases h : P as
    · obtain ⟨b, h1, h2⟩ := ih.1 h
      rw [h1]
      exact step as b a h h2
    · obtain ⟨m, h1⟩ := ih.2 h
      rw [h1]
      exact ⟨fun h' => absurd (mono as a h') h, fun _ => ⟨m, rfl⟩⟩

/-! ## Sections -/

theorem find_name {es : List Elem} {n : Nat} : es.find? (fun d => decide (d.name = n)) = none ↔ ∀ d ∈ es, d.name ≠ n := by
  simp

theorem same_symm {k : Kind} {a b : Elem} (h : same k a b = true) : same k b a = true := by
  cases k <;> simp only [same, Bool.and_eq_true, decide_eq_true_eq] at h ⊢ <;> simp [h]

theorem same_trans {k : Kind} {a b c : Elem} (h : same k a b = true) (h' : same k b c = true) : same k a c = true := by
  cases k <;> simp only [same, Bool.and_eq_true, decide_eq_true_eq] at h h' ⊢ <;> simp [h, h']

theorem same_refl (k : Kind) (a : Elem) : same k a a = true := by cases k <;> simp [same]

/-- What `MergeNamedVector` keeps. -/
structure Kept (k : Kind) (all es : List Elem) : Prop where
  names : (es.map (·.name)).Nodup
  sub : es.Sublist all
  found : ∀ e ∈ all, ∃ d ∈ es, d.name = e.name ∧ same k d e = true

theorem mergeElems_spec (k : Kind) (all : List Elem) :
    ((∀ a ∈ all, ∀ b ∈ all, a.name = b.name → same k a b = true) → ∃ es, loop (mergeElem k) [] all = .ok es ∧ Kept k all es) ∧
    (¬ (∀ a ∈ all, ∀ b ∈ all, a.name = b.name → same k a b = true) → ∃ m, loop (mergeElem k) [] all = .throw m) := by
  refine loop_spec (P := fun all => ∀ a ∈ all, ∀ b ∈ all, a.name = b.name → same k a b = true) (R := Kept k) (b0 := [])
    (fun a ha => by cases ha) ⟨List.nodup_nil, List.Sublist.slnil, fun e he => by cases he⟩ ?_ ?_ all
  · intro as a h x hx y hy
    exact h x (by simp [hx]) y (by simp [hy])
  intro as es a hP hR
  unfold mergeElem
  cases hf : es.find? (fun d => decide (d.name = a.name)) with
  | none =>
    have hno := find_name.1 hf
    have hall : ∀ x ∈ as, x.name ≠ a.name := by
      intro x hx hxa
      obtain ⟨d, hd1, hd2, _⟩ := hR.found x hx
      exact hno d hd1 (hd2.trans hxa)
    have hP' : ∀ x ∈ as ++ [a], ∀ y ∈ as ++ [a], x.name = y.name → same k x y = true := by
      intro x hx y hy hxy
      rcases List.mem_append.1 hx with hx' | hx' <;> rcases List.mem_append.1 hy with hy' | hy'
      · exact hP x hx' y hy' hxy
      · rw [List.mem_singleton] at hy'; subst hy'; exact absurd hxy (hall x hx')
      · rw [List.mem_singleton] at hx'; subst hx'; exact absurd hxy.symm (hall y hy')
      · rw [List.mem_singleton] at hx' hy'; subst hx'; subst hy'; exact same_refl k _
    refine ⟨fun _ => ⟨_, rfl, ?_, List.Sublist.append hR.sub (List.Sublist.refl _), ?_⟩, fun h => absurd hP' h⟩
    · rw [List.map_append, List.nodup_append]
      refine ⟨hR.names, by simp, ?_⟩
      intro n hn m hm
      obtain ⟨d, hd, rfl⟩ := List.mem_map.1 hn
      simp only [List.map_cons, List.map_nil, List.mem_singleton] at hm
      subst hm
      exact hno d hd
    · intro e he
      rcases List.mem_append.1 he with he' | he'
      · obtain ⟨d, hd1, hd2⟩ := hR.found e he'
        exact ⟨d, by simp [hd1], hd2⟩
      · rw [List.mem_singleton] at he'
        subst he'
        exact ⟨e, by simp, rfl, same_refl k e⟩
  | some d =>
    have hd := List.mem_of_find?_eq_some hf
    have hdn : d.name = a.name := by simpa using List.find?_some hf
    by_cases hs : same k d a = true
    · simp only [hs, if_true]
      refine ⟨fun _ => ⟨es, rfl, hR.names, hR.sub.trans (List.sublist_append_left _ _), ?_⟩, fun h => absurd ?_ h⟩
      · intro e he
        rcases List.mem_append.1 he with he' | he'
        · exact hR.found e he'
        · rw [List.mem_singleton] at he'
          subst he'
          exact ⟨d, hd, hdn, hs⟩
      · have hda := hR.sub.subset hd
        intro x hx y hy hxy
        rcases List.mem_append.1 hx with hx' | hx' <;> rcases List.mem_append.1 hy with hy' | hy'
        · exact hP x hx' y hy' hxy
        · rw [List.mem_singleton] at hy'; subst hy'
          exact same_trans (hP x hx' d hda (hxy.trans hdn.symm)) hs
        · rw [List.mem_singleton] at hx'; subst hx'
          exact same_trans (same_symm hs) (hP d hda y hy' (hdn.trans hxy))
        · rw [List.mem_singleton] at hx' hy'; subst hx'; subst hy'; exact same_refl k _
    · simp only [hs, Bool.false_eq_true, if_false]
      refine ⟨fun h => absurd (h d (by simp [hR.sub.subset hd]) a (by simp) hdn) hs, fun _ => ⟨_, rfl⟩⟩

theorem noRepetition_snoc {α : Type} {l : List α} {a : α} : NoRepetition (l ++ [a]) ↔ NoRepetition l ∧ l.getLast? ≠ some a := by
  induction l with
  | nil => simp [NoRepetition]
  | cons x l ih =>
    cases l with
    | nil => simp [NoRepetition]
    | cons y l =>
      show (x ≠ y ∧ NoRepetition (y :: l ++ [a])) ↔ (x ≠ y ∧ NoRepetition (y :: l)) ∧ (x :: y :: l).getLast? ≠ some a
      rw [ih, List.getLast?_cons_cons]
      simp only [and_assoc]

theorem mergeTimeout_spec (ts : List (Option Nat)) :
    (NoRepetition (ts.filterMap id) → ∃ t, loop mergeTimeout none ts = .ok t ∧ t = (ts.filterMap id).getLast?) ∧
    (¬ NoRepetition (ts.filterMap id) → ∃ m, loop mergeTimeout none ts = .throw m) := by
  refine loop_spec (P := fun ts => NoRepetition (ts.filterMap id)) (R := fun ts t => t = (ts.filterMap id).getLast?) trivial rfl ?_ ?_ ts
  · intro as a h
    cases a with
    | none => simpa using h
    | some v =>
      rw [List.filterMap_append] at h
      exact (noRepetition_snoc.1 h).1
  · intro as t a hP hR
    cases a with
    | none =>
      refine ⟨fun _ => ⟨t, rfl, by simpa using hR⟩, fun h => absurd (by simpa using hP) h⟩
    | some v =>
      have hfm : (as ++ [some v]).filterMap id = as.filterMap id ++ [v] := by rw [List.filterMap_append]; rfl
      show (NoRepetition ((as ++ [some v]).filterMap id) → ∃ b', mergeTimeout t (some v) = .ok b' ∧ b' = ((as ++ [some v]).filterMap id).getLast?) ∧
        (¬ NoRepetition ((as ++ [some v]).filterMap id) → ∃ m, mergeTimeout t (some v) = .throw m)
      rw [hfm, noRepetition_snoc, ← hR]
      unfold mergeTimeout
      by_cases h : t = some v
      · simp only [h, if_true]
        exact ⟨fun hx => absurd rfl hx.2, fun _ => ⟨_, rfl⟩⟩
      · simp only [h, if_false]
        exact ⟨fun _ => ⟨_, rfl, by simp⟩, fun hx => absurd ⟨hP, h⟩ hx⟩

theorem mergeName_spec (ns : List (Option Nat)) :
    ((ns.filterMap id).length ≤ 1 → ∃ n, loop mergeName none ns = .ok n ∧ n = (ns.filterMap id).head?) ∧
    (¬ (ns.filterMap id).length ≤ 1 → ∃ m, loop mergeName none ns = .throw m) := by
  refine loop_spec (P := fun ns => (ns.filterMap id).length ≤ 1) (R := fun ns n => n = (ns.filterMap id).head?) (by simp) rfl ?_ ?_ ns
  · intro as a h
    rw [List.filterMap_append, List.length_append] at h
    omega
  · intro as n a hP hR
    cases a with
    | none => exact ⟨fun _ => ⟨n, by cases n <;> rfl, by simpa using hR⟩, fun h => absurd (by simpa using hP) h⟩
    | some v =>
      have hfm : (as ++ [some v]).filterMap id = as.filterMap id ++ [v] := by rw [List.filterMap_append]; rfl
      show (((as ++ [some v]).filterMap id).length ≤ 1 → ∃ b', mergeName n (some v) = .ok b' ∧ b' = ((as ++ [some v]).filterMap id).head?) ∧
        (¬ ((as ++ [some v]).filterMap id).length ≤ 1 → ∃ m, mergeName n (some v) = .throw m)
      rw [hfm]
      cases hl : as.filterMap id with
      | nil =>
        rw [hl] at hR
        subst hR
        exact ⟨fun _ => ⟨_, rfl, rfl⟩, fun h => absurd (by simp) h⟩
      | cons x l =>
        rw [hl] at hR
        subst hR
        refine ⟨fun h => ?_, fun _ => ⟨_, rfl⟩⟩
        simp at h

theorem acceptors_spec (us : List (List Nat)) :
    ((us.filter (fun u => decide (u ≠ []))).length ≤ 1 → ∃ u, loop cacheAcceptors [] us = .ok u ∧ u = us.flatten) ∧
    (¬ (us.filter (fun u => decide (u ≠ []))).length ≤ 1 → ∃ m, loop cacheAcceptors [] us = .throw m) := by
  refine loop_spec (P := fun us => (us.filter (fun u => decide (u ≠ []))).length ≤ 1) (R := fun us u => u = us.flatten) (by simp) rfl ?_ ?_ us
  · intro as a h
    rw [List.filter_append, List.length_append] at h
    omega
  · intro as u a hP hR
    have hempty : (as.filter (fun u => decide (u ≠ []))).length = 0 ↔ as.flatten = [] := by
      rw [List.length_eq_zero_iff, List.filter_eq_nil_iff, List.flatten_eq_nil_iff]
      simp
    by_cases ha : a = []
    · subst ha
      refine ⟨fun _ => ⟨u, rfl, by simpa using hR⟩, fun h => absurd ?_ h⟩
      rw [List.filter_append]
      simpa using hP
    · unfold cacheAcceptors
      have hone : (List.filter (fun u => decide (u ≠ [])) [a]).length = 1 := by simp [ha]
      simp only [ha, if_false, List.filter_append, List.length_append, hone]
      by_cases hu : u = []
      · have h0 := hempty.2 (hR ▸ hu)
        simp only [ne_eq] at h0
        simp only [hu, ne_eq, not_true, if_false]
        refine ⟨fun _ => ⟨a, rfl, ?_⟩, fun h => absurd (by omega) h⟩
        rw [List.flatten_append, ← hR, hu]
        simp
      · have h0 : (as.filter (fun u => decide (u ≠ []))).length ≠ 0 := fun h => hu (hR.trans (hempty.1 h))
        simp only [hu, ne_eq, not_false_iff, if_true]
        exact ⟨fun h => by exfalso; have h1 := Nat.pos_of_ne_zero h0; simp only [ne_eq] at h1; omega, fun _ => ⟨_, rfl⟩⟩

theorem cacheNonDefault_spec {α : Type} [DecidableEq α] (d : α) (vs : List α) :
    (AllEqual (vs.filter (fun v => decide (v ≠ d))) → ∃ c, loop (cacheNonDefault d) none vs = .ok c ∧ c = (vs.filter (fun v => decide (v ≠ d))).head?) ∧
    (¬ AllEqual (vs.filter (fun v => decide (v ≠ d))) → ∃ m, loop (cacheNonDefault d) none vs = .throw m) := by
  refine loop_spec (P := fun vs => AllEqual (vs.filter (fun v => decide (v ≠ d)))) (R := fun vs c => c = (vs.filter (fun v => decide (v ≠ d))).head?)
    (by intro a ha; cases ha) rfl ?_ ?_ vs
  · intro as a h x hx y hy
    exact h x (by rw [List.filter_append]; simp only [List.mem_append]; exact .inl hx) y (by rw [List.filter_append]; simp only [List.mem_append]; exact .inl hy)
  · intro as c a hP hR
    unfold cacheNonDefault
    by_cases ha : a = d
    · have hf : (as ++ [a]).filter (fun v => decide (v ≠ d)) = as.filter (fun v => decide (v ≠ d)) := by rw [List.filter_append]; simp [ha]
      rw [hf, if_neg (by simp [ha])]
      exact ⟨fun _ => ⟨c, rfl, hR⟩, fun h => absurd hP h⟩
    · have hf : (as ++ [a]).filter (fun v => decide (v ≠ d)) = as.filter (fun v => decide (v ≠ d)) ++ [a] := by rw [List.filter_append]; simp [ha]
      rw [hf, if_pos (fun h => ha h.symm)]
      cases hl : as.filter (fun v => decide (v ≠ d)) with
      | nil =>
        rw [hl] at hR
        subst hR
        refine ⟨fun _ => ⟨some a, rfl, rfl⟩, fun h => absurd ?_ h⟩
        intro x hx y hy
        simp only [List.nil_append, List.mem_singleton] at hx hy
        rw [hx, hy]
      | cons x l =>
        rw [hl] at hR hP
        subst hR
        by_cases hx : x = a
        · subst hx
          refine ⟨fun _ => ⟨some x, by simp, rfl⟩, fun h => absurd ?_ h⟩
          intro y hy z hz
          have key : ∀ y ∈ x :: l ++ [x], y = x := by
            intro y hy
            rcases List.mem_append.1 hy with hy' | hy'
            · exact hP y hy' x (by simp)
            · exact List.mem_singleton.1 hy'
          rw [key y hy, key z hz]
        · refine ⟨fun h => absurd (h x (by simp) a (by simp)) hx, fun _ => ⟨"Config element is already set", ?_⟩⟩
          rw [if_pos (by simp [hx])]

theorem dynamicStep_spec (vs : List (Option Bool)) :
    (AllEqual (vs.filterMap id) → ∃ c, loop cacheDynamicStep none vs = .ok c ∧ c = (vs.filterMap id).head?) ∧
    (¬ AllEqual (vs.filterMap id) → ∃ m, loop cacheDynamicStep none vs = .throw m) := by
  refine loop_spec (P := fun vs => AllEqual (vs.filterMap id)) (R := fun vs c => c = (vs.filterMap id).head?) (by intro a ha; cases ha) rfl ?_ ?_ vs
  · intro as a h x hx y hy
    exact h x (by rw [List.filterMap_append]; simp only [List.mem_append]; exact .inl hx) y (by rw [List.filterMap_append]; simp only [List.mem_append]; exact .inl hy)
  · intro as c a hP hR
    cases a with
    | none => exact ⟨fun _ => ⟨c, rfl, by simpa using hR⟩, fun h => absurd (by simpa using hP) h⟩
    | some v =>
      have hfm : (as ++ [some v]).filterMap id = as.filterMap id ++ [v] := by rw [List.filterMap_append]; rfl
      show (AllEqual ((as ++ [some v]).filterMap id) → ∃ b', cacheNonDefault (!v) c v = .ok b' ∧ b' = ((as ++ [some v]).filterMap id).head?) ∧
        (¬ AllEqual ((as ++ [some v]).filterMap id) → ∃ m, cacheNonDefault (!v) c v = .throw m)
      rw [hfm]
      unfold cacheNonDefault
      rw [if_pos (by cases v <;> simp)]
      cases hl : as.filterMap id with
      | nil =>
        rw [hl] at hR
        subst hR
        refine ⟨fun _ => ⟨some v, rfl, rfl⟩, fun h => absurd ?_ h⟩
        intro x hx y hy
        simp only [List.nil_append, List.mem_singleton] at hx hy
        rw [hx, hy]
      | cons x l =>
        rw [hl] at hR hP
        subst hR
        by_cases hx : x = v
        · subst hx
          refine ⟨fun _ => ⟨some x, by simp, rfl⟩, fun h => absurd ?_ h⟩
          intro y hy z hz
          have key : ∀ y ∈ x :: l ++ [x], y = x := by
            intro y hy
            rcases List.mem_append.1 hy with hy' | hy'
            · exact hP y hy' x (by simp)
            · exact List.mem_singleton.1 hy'
          rw [key y hy, key z hz]
        · refine ⟨fun h => absurd (h x (by simp) v (by simp)) hx, fun _ => ⟨"Config element is already set", ?_⟩⟩
          rw [if_pos (by simp [hx])]

theorem insertSink_perm (s : Sink) (l : List Sink) : (insertSink s l).Perm (s :: l) := by
  induction l with
  | nil => exact List.Perm.refl _
  | cons t l ih =>
    unfold insertSink
    split
    · exact List.Perm.refl _
    · exact (List.Perm.cons t ih).trans (List.Perm.swap s t l)

/-- What is in the cache after some sinks. -/
structure Cached (ss : List Sink) (c : LogCache) : Prop where
  stdout : c.stdout.toList = ss.filter (fun s => decide (s.type = .stdout))
  remote : c.remote.toList = ss.filter (fun s => decide (s.type = .remote))
  files : c.files.Perm (ss.filter (fun s => decide (s.type = .file)))

theorem sinksFit_prefix {as : List Sink} {a : Sink} (h : SinksFit (as ++ [a])) : SinksFit as := by
  obtain ⟨h1, h2, h3⟩ := h
  rw [List.filter_append, List.length_append] at h1 h2
  rw [List.filter_append, List.map_append, List.nodup_append] at h3
  exact ⟨by omega, by omega, h3.1⟩

theorem sinks_spec (ss : List Sink) :
    (SinksFit ss → ∃ c, loop cacheSink {} ss = .ok c ∧ Cached ss c) ∧ (¬ SinksFit ss → ∃ m, loop cacheSink {} ss = .throw m) := by
  refine loop_spec (P := SinksFit) (R := Cached) ⟨by simp, by simp, by simp⟩ ⟨rfl, rfl, List.Perm.refl _⟩ (fun _ _ => sinksFit_prefix) ?_ ss
  intro as c a hP hR
  unfold cacheSink
  cases ht : a.type with
  | stdout =>
    have e1 : (as ++ [a]).filter (fun s => decide (s.type = .stdout)) = as.filter (fun s => decide (s.type = .stdout)) ++ [a] := by
      rw [List.filter_append]; simp [ht]
    have e2 : (as ++ [a]).filter (fun s => decide (s.type = .remote)) = as.filter (fun s => decide (s.type = .remote)) := by
      rw [List.filter_append]; simp [ht]
    have e3 : (as ++ [a]).filter (fun s => decide (s.type = .file)) = as.filter (fun s => decide (s.type = .file)) := by
      rw [List.filter_append]; simp [ht]
    cases hc : c.stdout with
    | none =>
      have h0 : as.filter (fun s => decide (s.type = .stdout)) = [] := by rw [← hR.stdout, hc]; rfl
      refine ⟨fun _ => ⟨_, rfl, ?_, ?_, ?_⟩, fun h => absurd ⟨?_, ?_, ?_⟩ h⟩
      · rw [e1, h0]; rfl
      · rw [e2]; exact hR.remote
      · rw [e3]; exact hR.files
      · rw [e1, h0]; simp
      · rw [e2]; exact hP.remote
      · rw [e3]; exact hP.files
    | some x =>
      refine ⟨fun h => ?_, fun _ => ⟨_, rfl⟩⟩
      have := h.stdout
      rw [e1, ← hR.stdout, hc] at this
      simp at this
  | remote =>
    have e1 : (as ++ [a]).filter (fun s => decide (s.type = .stdout)) = as.filter (fun s => decide (s.type = .stdout)) := by
      rw [List.filter_append]; simp [ht]
    have e2 : (as ++ [a]).filter (fun s => decide (s.type = .remote)) = as.filter (fun s => decide (s.type = .remote)) ++ [a] := by
      rw [List.filter_append]; simp [ht]
    have e3 : (as ++ [a]).filter (fun s => decide (s.type = .file)) = as.filter (fun s => decide (s.type = .file)) := by
      rw [List.filter_append]; simp [ht]
    cases hc : c.remote with
    | none =>
      have h0 : as.filter (fun s => decide (s.type = .remote)) = [] := by rw [← hR.remote, hc]; rfl
      refine ⟨fun _ => ⟨_, rfl, ?_, ?_, ?_⟩, fun h => absurd ⟨?_, ?_, ?_⟩ h⟩
      · rw [e1]; exact hR.stdout
      · rw [e2, h0]; rfl
      · rw [e3]; exact hR.files
      · rw [e1]; exact hP.stdout
      · rw [e2, h0]; simp
      · rw [e3]; exact hP.files
    | some x =>
      refine ⟨fun h => ?_, fun _ => ⟨_, rfl⟩⟩
      have := h.remote
      rw [e2, ← hR.remote, hc] at this
      simp at this
  | file =>
    have e1 : (as ++ [a]).filter (fun s => decide (s.type = .stdout)) = as.filter (fun s => decide (s.type = .stdout)) := by
      rw [List.filter_append]; simp [ht]
    have e2 : (as ++ [a]).filter (fun s => decide (s.type = .remote)) = as.filter (fun s => decide (s.type = .remote)) := by
      rw [List.filter_append]; simp [ht]
    have e3 : (as ++ [a]).filter (fun s => decide (s.type = .file)) = as.filter (fun s => decide (s.type = .file)) ++ [a] := by
      rw [List.filter_append]; simp [ht]
    by_cases hc : c.files.any (fun t => decide (t.logName = a.logName)) = true
    · simp only [hc, if_true]
      refine ⟨fun h => ?_, fun _ => ⟨_, rfl⟩⟩
      obtain ⟨t, ht1, ht2⟩ := List.any_eq_true.1 hc
      have := h.files
      rw [e3, List.map_append, List.nodup_append] at this
      exact absurd (of_decide_eq_true ht2) (this.2.2 t.logName (List.mem_map.2 ⟨t, (hR.files.mem_iff).1 ht1, rfl⟩) a.logName (by simp))
    · simp only [hc, Bool.false_eq_true, if_false]
      refine ⟨fun _ => ⟨_, rfl, ?_, ?_, ?_⟩, fun h => absurd ⟨?_, ?_, ?_⟩ h⟩
      · rw [e1]; exact hR.stdout
      · rw [e2]; exact hR.remote
      · rw [e3]
        exact (insertSink_perm a _).trans ((List.Perm.cons a hR.files).trans (List.perm_append_singleton _ _).symm)
      · rw [e1]; exact hP.stdout
      · rw [e2]; exact hP.remote
      · rw [e3, List.map_append, List.nodup_append]
        refine ⟨hP.files, by simp, ?_⟩
        intro n hn m hm
        obtain ⟨t, ht, rfl⟩ := List.mem_map.1 hn
        simp only [List.map_cons, List.map_nil, List.mem_singleton] at hm
        subst hm
        intro heq
        exact hc (List.any_eq_true.2 ⟨t, (hR.files.mem_iff).2 ht, by simpa using heq⟩)

theorem cached_perm {ss : List Sink} {c : LogCache} (h : Cached ss c) : (c.files ++ c.stdout.toList ++ c.remote.toList).Perm ss := by
  rw [h.stdout, h.remote]
  refine ((h.files.append_right _).append_right _).trans ?_
  clear h
  induction ss with
  | nil => exact List.Perm.refl _
  | cons s ss ih =>
    cases ht : s.type with
    | file => simpa [ht] using ih
    | stdout =>
      have : (List.filter (fun s => decide (s.type = .file)) (s :: ss) ++ List.filter (fun s => decide (s.type = .stdout)) (s :: ss) ++
          List.filter (fun s => decide (s.type = .remote)) (s :: ss)) =
          List.filter (fun s => decide (s.type = .file)) ss ++ s :: (List.filter (fun s => decide (s.type = .stdout)) ss ++
          List.filter (fun s => decide (s.type = .remote)) ss) := by simp [ht]
      rw [this]
      refine List.perm_middle.trans (List.Perm.cons s ?_)
      rw [← List.append_assoc]
      exact ih
    | remote =>
      have : (List.filter (fun s => decide (s.type = .file)) (s :: ss) ++ List.filter (fun s => decide (s.type = .stdout)) (s :: ss) ++
          List.filter (fun s => decide (s.type = .remote)) (s :: ss)) =
          (List.filter (fun s => decide (s.type = .file)) ss ++ List.filter (fun s => decide (s.type = .stdout)) ss) ++
          s :: List.filter (fun s => decide (s.type = .remote)) ss := by simp [ht]
      rw [this]
      exact List.perm_middle.trans (List.Perm.cons s ih)

theorem insertMetricsSink_perm (s : MetricsSink) (l : List MetricsSink) : (insertMetricsSink s l).Perm (s :: l) := by
  induction l with
  | nil => exact List.Perm.refl _
  | cons t l ih =>
    unfold insertMetricsSink
    split
    · exact List.Perm.refl _
    · exact (List.Perm.cons t ih).trans (List.Perm.swap s t l)

/-- What is in the cache after some metrics sinks. -/
structure MCached (ss : List MetricsSink) (c : MetricsCache) : Prop where
  remote : c.remote.toList = ss.filter (fun s => decide (s.type = .remote))
  files : c.files.Perm (ss.filter (fun s => decide (s.type = .jsonFile)))

theorem metricsFit_prefix {as bs : List MetricsSink} (h : MetricsSinksFit (as ++ bs)) : MetricsSinksFit as := by
  obtain ⟨h0, h1, h3⟩ := h
  rw [List.filter_append, List.length_append] at h1
  rw [List.filter_append, List.map_append, List.nodup_append] at h3
  exact ⟨fun s hs => h0 s (by simp [hs]), by omega, h3.1⟩

theorem metricsSinks_spec (as0 : List MetricsSink) (c0 : MetricsCache) (hfit : MetricsSinksFit as0) (hc : MCached as0 c0) (ss : List MetricsSink) :
    (MetricsSinksFit (as0 ++ ss) → ∃ c, loop cacheMetricsSink c0 ss = .ok c ∧ MCached (as0 ++ ss) c ∧ c.collect = c0.collect) ∧
    (¬ MetricsSinksFit (as0 ++ ss) → ∃ m, loop cacheMetricsSink c0 ss = .throw m) := by
  refine loop_spec (P := fun ss => MetricsSinksFit (as0 ++ ss)) (R := fun ss c => MCached (as0 ++ ss) c ∧ c.collect = c0.collect) (b0 := c0)
    (by rw [List.append_nil]; exact hfit) ⟨by rw [List.append_nil]; exact hc, rfl⟩ ?_ ?_ ss
  · intro as a h
    rw [← List.append_assoc] at h
    exact metricsFit_prefix h
  intro bs c a hP hR
  obtain ⟨hR, hcoll⟩ := hR
  rw [← List.append_assoc]
  generalize as0 ++ bs = as at hP hR ⊢
  unfold cacheMetricsSink
  cases ht : a.type with
  | undefined => exact ⟨fun h => absurd ht (h.defined a (by simp)), fun _ => ⟨_, rfl⟩⟩
  | remote =>
    have e2 : (as ++ [a]).filter (fun s => decide (s.type = .remote)) = as.filter (fun s => decide (s.type = .remote)) ++ [a] := by
      rw [List.filter_append]; simp [ht]
    have e3 : (as ++ [a]).filter (fun s => decide (s.type = .jsonFile)) = as.filter (fun s => decide (s.type = .jsonFile)) := by
      rw [List.filter_append]; simp [ht]
    cases hc : c.remote with
    | none =>
      have h0 : as.filter (fun s => decide (s.type = .remote)) = [] := by rw [← hR.remote, hc]; rfl
      refine ⟨fun _ => ⟨_, rfl, ⟨?_, ?_⟩, hcoll⟩, fun h => absurd ⟨?_, ?_, ?_⟩ h⟩
      · rw [e2, h0]; rfl
      · rw [e3]; exact hR.files
      · intro s hs
        rcases List.mem_append.1 hs with hs' | hs'
        · exact hP.defined s hs'
        · rw [List.mem_singleton] at hs'; rw [hs', ht]; decide
      · rw [e2, h0]; simp
      · rw [e3]; exact hP.files
    | some x =>
      refine ⟨fun h => ?_, fun _ => ⟨_, rfl⟩⟩
      have := h.remote
      rw [e2, ← hR.remote, hc] at this
      simp at this
  | jsonFile =>
    have e2 : (as ++ [a]).filter (fun s => decide (s.type = .remote)) = as.filter (fun s => decide (s.type = .remote)) := by
      rw [List.filter_append]; simp [ht]
    have e3 : (as ++ [a]).filter (fun s => decide (s.type = .jsonFile)) = as.filter (fun s => decide (s.type = .jsonFile)) ++ [a] := by
      rw [List.filter_append]; simp [ht]
    by_cases hc : c.files.any (fun t => decide (t.name = a.name)) = true
    · simp only [hc, if_true]
      refine ⟨fun h => ?_, fun _ => ⟨_, rfl⟩⟩
      obtain ⟨t, ht1, ht2⟩ := List.any_eq_true.1 hc
      have := h.files
      rw [e3, List.map_append, List.nodup_append] at this
      exact absurd (of_decide_eq_true ht2) (this.2.2 t.name (List.mem_map.2 ⟨t, (hR.files.mem_iff).1 ht1, rfl⟩) a.name (by simp))
    · simp only [hc, Bool.false_eq_true, if_false]
      refine ⟨fun _ => ⟨_, rfl, ⟨?_, ?_⟩, hcoll⟩, fun h => absurd ⟨?_, ?_, ?_⟩ h⟩
      · rw [e2]; exact hR.remote
      · rw [e3]
        exact (insertMetricsSink_perm a _).trans ((List.Perm.cons a hR.files).trans (List.perm_append_singleton _ _).symm)
      · intro s hs
        rcases List.mem_append.1 hs with hs' | hs'
        · exact hP.defined s hs'
        · rw [List.mem_singleton] at hs'; rw [hs', ht]; decide
      · rw [e2]; exact hP.remote
      · rw [e3, List.map_append, List.nodup_append]
        refine ⟨hP.files, by simp, ?_⟩
        intro n hn m hm
        obtain ⟨t, ht, rfl⟩ := List.mem_map.1 hn
        simp only [List.map_cons, List.map_nil, List.mem_singleton] at hm
        subst hm
        intro heq
        exact hc (List.any_eq_true.2 ⟨t, (hR.files.mem_iff).2 ht, by simpa using heq⟩)

theorem mcached_perm {ss : List MetricsSink} {c : MetricsCache} (hf : MetricsSinksFit ss) (h : MCached ss c) : (c.files ++ c.remote.toList).Perm ss := by
  rw [h.remote]
  refine (h.files.append_right _).trans ?_
  have hd := hf.defined
  clear h hf
  induction ss with
  | nil => exact List.Perm.refl _
  | cons s ss ih =>
    have ih := ih (fun s hs => hd s (by simp [hs]))
    cases ht : s.type with
    | undefined => exact absurd ht (hd s (by simp))
    | jsonFile => simpa [ht] using ih
    | remote =>
      have : (List.filter (fun s => decide (s.type = .jsonFile)) (s :: ss) ++ List.filter (fun s => decide (s.type = .remote)) (s :: ss)) =
          List.filter (fun s => decide (s.type = .jsonFile)) ss ++ s :: List.filter (fun s => decide (s.type = .remote)) ss := by simp [ht]
      rw [this]
      exact List.perm_middle.trans (List.Perm.cons s ih)

theorem cacheMetrics_spec (cs : List Config) :
    (MetricsSinksFit (cs.flatMap (·.metricsSinks)) → ∃ c, loop cacheMetrics {} cs = .ok c ∧ MCached (cs.flatMap (·.metricsSinks)) c ∧
      c.collect = if some true ∈ cs.map (·.collectFromRemote) then some true else none) ∧
    (¬ MetricsSinksFit (cs.flatMap (·.metricsSinks)) → ∃ m, loop cacheMetrics {} cs = .throw m) := by
  refine loop_spec (P := fun cs : List Config => MetricsSinksFit (cs.flatMap (·.metricsSinks))) (R := fun cs c => MCached (cs.flatMap (·.metricsSinks)) c ∧
      c.collect = if some true ∈ cs.map (·.collectFromRemote) then some true else none) (b0 := {})
    ⟨fun s hs => (by cases hs), by simp, by simp⟩ ⟨⟨rfl, List.Perm.refl _⟩, rfl⟩ ?_ ?_ cs
  · intro as a h
    rw [List.flatMap_append] at h
    exact metricsFit_prefix h
  intro as c a hP hR
  obtain ⟨hR, hcoll⟩ := hR
  have hcollect : ∃ v, cacheCollect c.collect a.collectFromRemote = .ok v ∧ v = if some true ∈ (as ++ [a]).map (·.collectFromRemote) then some true else none := by
    rw [List.map_append]
    cases ha : a.collectFromRemote with
    | none => exact ⟨_, rfl, by rw [hcoll]; simp [ha]⟩
    | some v =>
      cases v with
      | false => exact ⟨_, rfl, by rw [hcoll]; simp [ha]⟩
      | true =>
        refine ⟨some true, ?_, by simp [ha]⟩
        show cacheNonDefault false c.collect true = _
        unfold cacheNonDefault
        rw [hcoll]
        by_cases hx : some true ∈ as.map (·.collectFromRemote)
        · rw [if_pos hx]; rfl
        · rw [if_neg hx]; rfl
  obtain ⟨v, h1, h2⟩ := hcollect
  unfold cacheMetrics
  rw [h1, List.flatMap_append]
  show (MetricsSinksFit (as.flatMap (·.metricsSinks) ++ [a].flatMap (·.metricsSinks)) → ∃ b', loop cacheMetricsSink { c with collect := v } a.metricsSinks = .ok b' ∧ _) ∧ _
  have hflat : [a].flatMap (·.metricsSinks) = a.metricsSinks := by simp
  rw [hflat]
  have hs := metricsSinks_spec (as.flatMap (·.metricsSinks)) { c with collect := v } hP ⟨hR.remote, hR.files⟩ a.metricsSinks
  refine ⟨fun h => ?_, hs.2⟩
  obtain ⟨b, k1, k2, k3⟩ := hs.1 h
  exact ⟨b, k1, k2, k3.trans h2⟩

/-! ## Whole configurations -/

theorem filterMap_map_id {α β : Type} (f : α → Option β) (l : List α) : (l.map f).filterMap id = l.filterMap f := by
  rw [List.filterMap_map]; rfl

theorem values_eq (o : Opt) (fs : List File) :
    ((fs.map deserialize).map (fun c => c.opt o)).filter (fun v => decide (v ≠ o.default)) = values o fs := by
  unfold values
  induction fs with
  | nil => rfl
  | cons f fs ih =>
    rw [List.map_cons, List.map_cons, List.filter_cons, ih, List.filterMap_cons]
    show (if decide ((f.opt o).getD o.default ≠ o.default) = true then (f.opt o).getD o.default :: _ else _) = _
    cases h : f.opt o with
    | none => simp
    | some v =>
      simp only [Option.getD_some, List.filter_cons]

theorem flatMap_deserialize {α : Type} (g : Config → List α) (h : File → List α) (hg : ∀ f, g (deserialize f) = h f) (fs : List File) :
    (fs.map deserialize).flatMap g = fs.flatMap h := by
  induction fs with
  | nil => rfl
  | cons f fs ih => rw [List.map_cons, List.flatMap_cons, List.flatMap_cons, ih, hg]

theorem map_deserialize {α : Type} (g : Config → α) (h : File → α) (hg : ∀ f, g (deserialize f) = h f) (fs : List File) :
    (fs.map deserialize).map g = fs.map h := by
  rw [List.map_map]
  exact List.map_congr_left (fun f _ => hg f)

theorem mergeAllElems_spec (fs : List File) :
    ((∀ k, ∀ a ∈ allElems k fs, ∀ b ∈ allElems k fs, a.name = b.name → same k a b = true) →
      ∃ es, mergeAllElems (fs.map deserialize) = .ok es ∧ ∀ k, Kept k (allElems k fs) (es k)) ∧
    (¬ (∀ k, ∀ a ∈ allElems k fs, ∀ b ∈ allElems k fs, a.name = b.name → same k a b = true) → ∃ m, mergeAllElems (fs.map deserialize) = .throw m) := by
  have hk : ∀ k, mergeElems k (fs.map deserialize) = loop (mergeElem k) [] (allElems k fs) := by
    intro k
    unfold mergeElems
    rw [flatMap_deserialize (fun c => c.elems k) (fun f => f.elems k) (fun _ => rfl)]
    rfl
  constructor
  · intro h
    have hok : ∀ k, ∃ es, mergeElems k (fs.map deserialize) = .ok es ∧ Kept k (allElems k fs) es := fun k => by
      rw [hk]; exact (mergeElems_spec k _).1 (h k)
    unfold mergeAllElems
    rw [if_pos (by
      rw [List.all_eq_true]
      intro k _
      obtain ⟨es, h1, _⟩ := hok k
      rw [h1])]
    refine ⟨_, rfl, fun k => ?_⟩
    obtain ⟨es, h1, h2⟩ := hok k
    simp only [h1]
    exact h2
  · intro h
    unfold mergeAllElems
    rw [if_neg]
    · exact ⟨_, rfl⟩
    · intro hall
      refine h (fun k => ?_)
      by_cases hc : ∀ a ∈ allElems k fs, ∀ b ∈ allElems k fs, a.name = b.name → same k a b = true
      · exact hc
      · obtain ⟨m, hm⟩ := (mergeElems_spec k _).2 hc
        rw [List.all_eq_true] at hall
        have := hall k (by cases k <;> decide)
        rw [hk, hm] at this
        cases this

theorem mergeOption_spec (o : Opt) (fs : List File) :
    (AllEqual (values o fs) → mergeOption o (fs.map deserialize) = .ok ((values o fs).head?.getD o.default)) ∧
    (¬ AllEqual (values o fs) → ∃ m, mergeOption o (fs.map deserialize) = .throw m) := by
  have h := cacheNonDefault_spec o.default ((fs.map deserialize).map (fun c => c.opt o))
  rw [values_eq] at h
  unfold mergeOption
  constructor
  · intro hv
    obtain ⟨c, h1, h2⟩ := h.1 hv
    rw [h1, h2]
    rfl
  · intro hv
    obtain ⟨m, h1⟩ := h.2 hv
    rw [h1]
    exact ⟨m, rfl⟩

theorem mergeOptions_spec (fs : List File) :
    ((∀ o, AllEqual (values o fs)) → ∃ f, mergeOptions (fs.map deserialize) = .ok f ∧ ∀ o, f o = (values o fs).head?.getD o.default) ∧
    (¬ (∀ o, AllEqual (values o fs)) → ∃ m, mergeOptions (fs.map deserialize) = .throw m) := by
  constructor
  · intro h
    unfold mergeOptions
    rw [if_pos (by
      rw [List.all_eq_true]
      intro o _
      rw [(mergeOption_spec o fs).1 (h o)])]
    refine ⟨_, rfl, fun o => ?_⟩
    simp only [(mergeOption_spec o fs).1 (h o)]
  · intro h
    unfold mergeOptions
    rw [if_neg]
    · exact ⟨_, rfl⟩
    · intro hall
      refine h (fun o => ?_)
      by_cases hc : AllEqual (values o fs)
      · exact hc
      · obtain ⟨m, hm⟩ := (mergeOption_spec o fs).2 hc
        rw [List.all_eq_true] at hall
        have := hall o (by cases o <;> decide)
        rw [hm] at this
        cases this

theorem mergeSinks_spec (fs : List File) :
    (SinksFit (allSinks fs) → ∃ ss, mergeSinks (fs.map deserialize) = .ok ss ∧ ss.Perm (allSinks fs)) ∧
    (¬ SinksFit (allSinks fs) → ∃ m, mergeSinks (fs.map deserialize) = .throw m) := by
  have hs : (fs.map deserialize).flatMap (fun c => c.sinks) = allSinks fs := flatMap_deserialize _ _ (fun _ => rfl) fs
  unfold mergeSinks
  rw [hs]
  constructor
  · intro h
    obtain ⟨c, h1, h2⟩ := (sinks_spec _).1 h
    rw [h1]
    exact ⟨_, rfl, cached_perm h2⟩
  · intro h
    obtain ⟨m, h1⟩ := (sinks_spec _).2 h
    rw [h1]
    exact ⟨m, rfl⟩

theorem mergeMetrics_spec (fs : List File) :
    ((MetricsSinksFit (allMetricsSinks fs) ∧ ¬ ((∃ s ∈ allMetricsSinks fs, s.type = .remote) ∧ some true ∈ fs.map (·.collectFromRemote))) →
      ∃ ss, mergeMetrics (fs.map deserialize) = .ok (ss, none) ∧ ss.Perm (allMetricsSinks fs)) ∧
    (¬ (MetricsSinksFit (allMetricsSinks fs) ∧ ¬ ((∃ s ∈ allMetricsSinks fs, s.type = .remote) ∧ some true ∈ fs.map (·.collectFromRemote))) →
      ∃ m, mergeMetrics (fs.map deserialize) = .throw m) := by
  have hs : (fs.map deserialize).flatMap (fun c => c.metricsSinks) = allMetricsSinks fs := flatMap_deserialize _ _ (fun _ => rfl) fs
  have hm : (fs.map deserialize).map (fun c => c.collectFromRemote) = fs.map (·.collectFromRemote) := map_deserialize _ _ (fun _ => rfl) fs
  have hspec := cacheMetrics_spec (fs.map deserialize)
  rw [hs, hm] at hspec
  unfold mergeMetrics
  by_cases hf : MetricsSinksFit (allMetricsSinks fs)
  · obtain ⟨c, h1, h2, h3⟩ := hspec.1 hf
    rw [h1]
    have hremote : c.remote.isSome = true ↔ ∃ s ∈ allMetricsSinks fs, s.type = .remote := by
      have := h2.remote
      cases hc : c.remote with
      | none =>
        rw [hc] at this
        have := List.filter_eq_nil_iff.1 this.symm
        constructor
        · intro h; cases h
        · rintro ⟨s, k1, k2⟩
          exact absurd (by simpa using k2) (this s k1)
      | some x =>
        rw [hc] at this
        have hx : x ∈ (allMetricsSinks fs).filter (fun s => decide (s.type = .remote)) := by rw [← this]; simp
        obtain ⟨k1, k2⟩ := List.mem_filter.1 hx
        exact ⟨fun _ => ⟨x, k1, by simpa using k2⟩, fun _ => rfl⟩
    have hcollect : c.collect.getD false = true ↔ some true ∈ fs.map (·.collectFromRemote) := by
      rw [h3]; split <;> simp_all
    by_cases hb : (∃ s ∈ allMetricsSinks fs, s.type = .remote) ∧ some true ∈ fs.map (·.collectFromRemote)
    · refine ⟨fun h => absurd hb h.2, fun _ => ?_⟩
      simp only [Res.bind]
      rw [if_pos (by rw [Bool.and_eq_true]; exact ⟨hremote.2 hb.1, hcollect.2 hb.2⟩)]
      exact ⟨_, rfl⟩
    · refine ⟨fun _ => ?_, fun h => absurd ⟨hf, hb⟩ h⟩
      simp only [Res.bind]
      rw [if_neg (by rw [Bool.and_eq_true]; rintro ⟨k1, k2⟩; exact hb ⟨hremote.1 k1, hcollect.1 k2⟩)]
      exact ⟨_, rfl, mcached_perm hf h2⟩
  · obtain ⟨m, h1⟩ := hspec.2 hf
    rw [h1]
    exact ⟨fun h => absurd h.1 hf, fun _ => ⟨m, rfl⟩⟩

/-- One section after the other. -/
theorem bind_ok_or {α β : Type} {r : Res α} {f : α → Res β} {P Q : Prop} {T : β → Prop} {S : α → Prop} (h : (P → ∃ a, r = .ok a ∧ S a) ∧ (¬ P → ∃ m, r = .throw m))
    (hf : ∀ a, S a → P → (Q → ∃ b, f a = .ok b ∧ T b) ∧ (¬ Q → ∃ m, f a = .throw m)) :
    ((P ∧ Q) → ∃ b, r.bind f = .ok b ∧ T b) ∧ (¬ (P ∧ Q) → ∃ m, r.bind f = .throw m) := by
  by_cases hp : P
  · obtain ⟨a, h1, h2⟩ := h.1 hp
    rw [h1]
    have := hf a h2 hp
    exact ⟨fun hx => this.1 hx.2, fun hx => this.2 (fun hq => hx ⟨hp, hq⟩)⟩
  · obtain ⟨m, h1⟩ := h.2 hp
    rw [h1]
    exact ⟨fun hx => absurd hx.1 hp, fun _ => ⟨m, rfl⟩⟩

theorem merge_spec (fs : List File) :
    (Mergeable fs → ∃ c, merge (fs.map deserialize) = .ok c ∧ Merged fs c ∧ c.collectFromRemote = none ∧ c.updateInterval = 1) ∧
    (¬ Mergeable fs → ∃ m, merge (fs.map deserialize) = .throw m) := by
  have hiff : Mergeable fs ↔ (∀ k, ∀ a ∈ allElems k fs, ∀ b ∈ allElems k fs, a.name = b.name → same k a b = true) ∧
      NoRepetition (fs.filterMap (·.softTimeout)) ∧ NoRepetition (fs.filterMap (·.hardTimeout)) ∧ (fs.filterMap (·.participantName)).length ≤ 1 ∧
      (fs.filter (fun f => decide (f.acceptorUris ≠ []))).length ≤ 1 ∧ (∀ o, AllEqual (values o fs)) ∧ AllEqual (fs.filterMap (·.dynamicStep)) ∧
      SinksFit (allSinks fs) ∧ (MetricsSinksFit (allMetricsSinks fs) ∧
        ¬ ((∃ s ∈ allMetricsSinks fs, s.type = .remote) ∧ some true ∈ fs.map (·.collectFromRemote))) ∧ True :=
    ⟨fun h => ⟨h.elems, h.soft, h.hard, h.name, h.acceptors, h.options, h.dynamicStep, h.sinks, ⟨h.metrics, h.notBoth⟩, trivial⟩,
      fun ⟨h1, h2, h3, h4, h5, h6, h7, h8, ⟨h9, h10⟩, _⟩ => ⟨h1, h2, h3, h4, h5, h6, h7, h8, h9, h10⟩⟩
  have hsoft : (fs.map deserialize).map (·.softTimeout) = fs.map (·.softTimeout) := map_deserialize _ _ (fun _ => rfl) fs
  have hhard : (fs.map deserialize).map (·.hardTimeout) = fs.map (·.hardTimeout) := map_deserialize _ _ (fun _ => rfl) fs
  have hname : (fs.map deserialize).map (·.participantName) = fs.map (·.participantName) := map_deserialize _ _ (fun _ => rfl) fs
  have huris : (fs.map deserialize).map (·.acceptorUris) = fs.map (·.acceptorUris) := map_deserialize _ _ (fun _ => rfl) fs
  have hdyn : (fs.map deserialize).map (·.dynamicStep) = fs.map (·.dynamicStep) := map_deserialize _ _ (fun _ => rfl) fs
  have hext : (fs.map deserialize).flatMap (·.extensionPaths) = fs.flatMap (·.extensionPaths) := flatMap_deserialize _ _ (fun _ => rfl) fs
  have s1 := mergeTimeout_spec (fs.map (·.softTimeout))
  have s2 := mergeTimeout_spec (fs.map (·.hardTimeout))
  have s3 := mergeName_spec (fs.map (·.participantName))
  have s4 := acceptors_spec (fs.map (·.acceptorUris))
  have s5 := dynamicStep_spec (fs.map (·.dynamicStep))
  rw [filterMap_map_id] at s1 s2 s3 s5
  have hacc : ((fs.map (·.acceptorUris)).filter (fun u => decide (u ≠ []))).length = (fs.filter (fun f => decide (f.acceptorUris ≠ []))).length := by
    rw [List.filter_map, List.length_map]; rfl
  rw [hacc] at s4
  rw [hiff]
  unfold merge
  rw [hsoft, hhard, hname, huris, hdyn, hext]
  refine bind_ok_or (S := fun es => ∀ k, Kept k (allElems k fs) (es k)) (mergeAllElems_spec fs) (fun elems h1 _ => ?_)
  refine bind_ok_or (S := fun t => t = _) s1 (fun soft h2 _ => ?_)
  refine bind_ok_or (S := fun t => t = _) s2 (fun hard h3 _ => ?_)
  refine bind_ok_or (S := fun t => t = _) s3 (fun name h4 _ => ?_)
  refine bind_ok_or (S := fun t => t = _) s4 (fun uris h5 _ => ?_)
  refine bind_ok_or (S := fun f : Opt → Int => ∀ o, f o = (values o fs).head?.getD o.default) (mergeOptions_spec fs) (fun opt h6 _ => ?_)
  refine bind_ok_or (S := fun t => t = _) s5 (fun dyn h7 _ => ?_)
  refine bind_ok_or (S := fun ss => ss.Perm (allSinks fs)) (mergeSinks_spec fs) (fun sinks h8 _ => ?_)
  have hm : ((MetricsSinksFit (allMetricsSinks fs) ∧ ¬ ((∃ s ∈ allMetricsSinks fs, s.type = .remote) ∧ some true ∈ fs.map (·.collectFromRemote))) →
      ∃ p, mergeMetrics (fs.map deserialize) = .ok p ∧ (p.2 = none ∧ p.1.Perm (allMetricsSinks fs))) ∧
      (¬ (MetricsSinksFit (allMetricsSinks fs) ∧ ¬ ((∃ s ∈ allMetricsSinks fs, s.type = .remote) ∧ some true ∈ fs.map (·.collectFromRemote))) →
      ∃ m, mergeMetrics (fs.map deserialize) = .throw m) :=
    ⟨fun h => by obtain ⟨ss, k1, k2⟩ := (mergeMetrics_spec fs).1 h; exact ⟨_, k1, rfl, k2⟩, (mergeMetrics_spec fs).2⟩
  refine bind_ok_or (S := fun p => p.2 = none ∧ p.1.Perm (allMetricsSinks fs)) hm (fun metrics h9 _ => ⟨fun _ => ⟨_, rfl, ?_, h9.1, rfl⟩, fun h => absurd trivial h⟩)
  exact { elems := fun k => ⟨(h1 k).names, (h1 k).sub, (h1 k).found⟩, name := h4, options := h6, dynamicStep := h7,
          acceptors := h5.trans (List.flatMap_def ..).symm, sinks := h8, soft := h2, hard := h3, extensions := rfl, metrics := h9.2 }

/-! ## Includes -/

theorem loop_inv {α β : Type} {f : β → α → Res β} {b0 : β} {R : List α → β → Prop} (h0 : R [] b0)
    (step : ∀ as b a b', R as b → f b a = .ok b' → R (as ++ [a]) b') (as : List α) (b : β) (h : loop f b0 as = .ok b) : R as b := by
  induction as using snoc_induction generalizing b with
  | nil => cases h; exact h0
  | snoc as a ih =>
    rw [loop_snoc] at h
    cases hl : loop f b0 as with
    | ok c => rw [hl] at h; exact step as c a b (ih c hl) h
    | «throw» m => rw [hl] at h; cases h
    | ub m => rw [hl] at h; cases h

theorem mem_insertPath {x p : Path} {l : List Path} : x ∈ insertPath p l ↔ x = p ∨ x ∈ l := by
  induction l with
  | nil => simp [insertPath]
  | cons q l ih =>
    unfold insertPath
    by_cases h : p = q
    · rw [if_pos h]
      constructor
      · exact .inr
      · rintro (rfl | h')
        · simp [h]
        · exact h'
    · rw [if_neg h]
      by_cases h' : p < q
      · rw [if_pos h']; simp
      · rw [if_neg h', List.mem_cons, ih, List.mem_cons]
        constructor
        · rintro (h1 | h1 | h1)
          · exact .inr (.inl h1)
          · exact .inl h1
          · exact .inr (.inr h1)
        · rintro (h1 | h1 | h1)
          · exact .inr (.inl h1)
          · exact .inl h1
          · exact .inr (.inr h1)

theorem mem_appendHint {x hint : Path} {l : List Path} : x ∈ appendHint l hint ↔ x ∈ l ∨ Separated hint x := by
  unfold appendHint Separated
  cases hl : hint.getLast? with
  | none =>
    have : hint = [] := List.getLast?_eq_none_iff.1 hl
    simp [this]
  | some c =>
    have hne : hint ≠ [] := by intro h; rw [h] at hl; cases hl
    show x ∈ insertPath _ l ↔ _
    rw [mem_insertPath]
    by_cases hc : c ≠ 47 ∧ c ≠ 92
    · rw [if_pos hc]
      constructor
      · rintro (h | h)
        · exact .inr ⟨hne, .inr ⟨h, by simp [hc.1], by simp [hc.2]⟩⟩
        · exact .inl h
      · rintro (h | ⟨_, ⟨_, h | h⟩ | ⟨h, _⟩⟩)
        · exact .inr h
        · exact absurd (Option.some.inj h) hc.1
        · exact absurd (Option.some.inj h) hc.2
        · exact .inl h
    · rw [if_neg hc]
      have hc' : c = 47 ∨ c = 92 := by
        by_cases h1 : c = 47
        · exact .inl h1
        · by_cases h2 : c = 92
          · exact .inr h2
          · exact absurd ⟨h1, h2⟩ hc
      constructor
      · rintro (h | h)
        · exact .inr ⟨hne, .inl ⟨h, hc'.imp (fun e => by rw [e]) (fun e => by rw [e])⟩⟩
        · exact .inl h
      · rintro (h | ⟨_, ⟨h, _⟩ | ⟨_, h1, h2⟩⟩)
        · exact .inr h
        · exact .inl h
        · rcases hc' with rfl | rfl
          · exact absurd rfl h1
          · exact absurd rfl h2

theorem mem_appendHints {x : Path} {hints l : List Path} : x ∈ appendHints l hints ↔ x ∈ l ∨ ∃ hint ∈ hints, Separated hint x := by
  unfold appendHints
  induction hints generalizing l with
  | nil => simp
  | cons h hs ih =>
    rw [List.foldl_cons, ih, mem_appendHint]
    constructor
    · rintro ((h1 | h1) | ⟨g, h1, h2⟩)
      · exact .inl h1
      · exact .inr ⟨h, by simp, h1⟩
      · exact .inr ⟨g, by simp [h1], h2⟩
    · rintro (h1 | ⟨g, h1, h2⟩)
      · exact .inl (.inl h1)
      · rcases List.mem_cons.1 h1 with rfl | h3
        · exact .inl (.inr h2)
        · exact .inr ⟨g, h3, h2⟩

theorem open_place {cwd : Path} {fs : FileSystem} {paths : List Path} {file : Path} {f : File} (h : openWithHints cwd fs paths file = some f) :
    fs (absolute cwd file) = some f ∨ ∃ p ∈ paths, fs (absolute cwd (p ++ file)) = some f := by
  unfold openWithHints at h
  cases h0 : fs (absolute cwd file) with
  | some g => rw [h0] at h; exact .inl h
  | none =>
    rw [h0] at h
    obtain ⟨p, h1, h2⟩ := List.exists_of_findSome?_eq_some h
    exact .inr ⟨p, h1, h2⟩

/-- What holds of the files that were read so far. -/
structure Good (cwd : Path) (fs : FileSystem) (base : List Path) (l : Load) : Prop where
  names : l.included = l.read.map (·.1)
  nodup : l.included.Nodup
  paths : ∀ x, x ∈ l.paths ↔ x ∈ base ∨ ∃ e ∈ l.read, ∃ hint ∈ e.2.hints, Separated hint x
  found : ∀ e ∈ l.read, fs (absolute cwd e.1) = some e.2 ∨ ∃ p ∈ l.paths, fs (absolute cwd (p ++ e.1)) = some e.2
  direct : ∀ e ∈ l.read, ∀ f, fs (absolute cwd e.1) = some f → f = e.2

/-- What one level does. -/
structure Level (cwd : Path) (fs : FileSystem) (base : List Path) (l : Load) (files : List Path) (s : Load × List Path) : Prop where
  good : Good cwd fs base s.1
  included : ∀ p, p ∈ s.1.included ↔ p ∈ l.included ∨ p ∈ files
  new : ∃ new, s.1.read = l.read ++ new ∧ s.2 = new.flatMap (·.2.includes) ∧ ∀ e ∈ new, e.1 ∈ files

theorem level_spec {cwd : Path} {fs : FileSystem} {base : List Path} {l : Load} (hl : Good cwd fs base l) (files : List Path) (s : Load × List Path)
    (h : loop (include1 cwd fs) (l, []) files = .ok s) : Level cwd fs base l files s := by
  refine loop_inv (R := Level cwd fs base l) ?_ ?_ files s h
  · exact ⟨hl, by simp, [], by simp, rfl, fun e he => by cases he⟩
  · intro as b a b' hb hs
    unfold include1 at hs
    obtain ⟨g, hi, new, n1, n2, n3⟩ := hb
    by_cases ha : a ∈ b.1.included
    · rw [if_pos ha] at hs
      cases hs
      refine ⟨g, fun p => ?_, new, n1, n2, fun e he => by simp [n3 e he]⟩
      rw [hi, List.mem_append, List.mem_singleton]
      constructor
      · rintro (h1 | h1)
        · exact .inl h1
        · exact .inr (.inl h1)
      · rintro (h1 | h1 | h1)
        · exact .inl h1
        · exact .inr h1
        · rw [h1]; exact (hi a).1 ha
    · rw [if_neg ha] at hs
      cases ho : openWithHints cwd fs b.1.paths a with
      | none => rw [ho] at hs; cases hs
      | some f =>
        rw [ho] at hs
        cases hs
        refine ⟨⟨?_, ?_, ?_, ?_, ?_⟩, ?_, new ++ [(a, f)], ?_, ?_, ?_⟩
        · show b.1.included ++ [a] = (b.1.read ++ [(a, f)]).map (·.1)
          rw [List.map_append, g.names]; rfl
        · show (b.1.included ++ [a]).Nodup
          rw [List.nodup_append]
          refine ⟨g.nodup, by simp, fun x hx y hy => ?_⟩
          rw [List.mem_singleton] at hy
          subst hy
          intro hxa
          exact ha (hxa ▸ hx)
        · intro x
          show x ∈ appendHints b.1.paths f.hints ↔ x ∈ base ∨ ∃ e ∈ b.1.read ++ [(a, f)], ∃ hint ∈ e.2.hints, Separated hint x
          rw [mem_appendHints, g.paths]
          constructor
          · rintro ((h1 | ⟨e, h1, h2⟩) | h1)
            · exact .inl h1
            · exact .inr ⟨e, by simp [h1], h2⟩
            · exact .inr ⟨(a, f), by simp, h1⟩
          · rintro (h1 | ⟨e, h1, h2⟩)
            · exact .inl (.inl h1)
            · rcases List.mem_append.1 h1 with h3 | h3
              · exact .inl (.inr ⟨e, h3, h2⟩)
              · rw [List.mem_singleton] at h3
                subst h3
                exact .inr h2
        · intro e he
          show fs (absolute cwd e.1) = some e.2 ∨ ∃ p ∈ appendHints b.1.paths f.hints, fs (absolute cwd (p ++ e.1)) = some e.2
          have hsub : ∀ p ∈ b.1.paths, p ∈ appendHints b.1.paths f.hints := fun p hp => mem_appendHints.2 (.inl hp)
          rcases List.mem_append.1 he with h3 | h3
          · rcases g.found e h3 with h4 | ⟨p, h4, h5⟩
            · exact .inl h4
            · exact .inr ⟨p, hsub p h4, h5⟩
          · rw [List.mem_singleton] at h3
            subst h3
            rcases open_place ho with h4 | ⟨p, h4, h5⟩
            · exact .inl h4
            · exact .inr ⟨p, hsub p h4, h5⟩
        · intro e he g' hg'
          rcases List.mem_append.1 he with h3 | h3
          · exact g.direct e h3 g' hg'
          · rw [List.mem_singleton] at h3
            subst h3
            unfold openWithHints at ho
            rw [hg'] at ho
            exact Option.some.inj ho
        · intro p
          show p ∈ b.1.included ++ [a] ↔ _
          rw [List.mem_append, hi, List.mem_append, or_assoc]
        · show b.1.read ++ [(a, f)] = _
          rw [n1, List.append_assoc]
        · show b.2 ++ f.includes = _
          rw [n2, List.flatMap_append]
          simp
        · intro e he
          rcases List.mem_append.1 he with h3 | h3
          · simp [n3 e h3]
          · rw [List.mem_singleton] at h3
            subst h3
            simp

theorem depth_mono {root : File} {r r' : List (Path × File)} (h : ∀ e ∈ r, e ∈ r') {n : Nat} {p : Path} (hd : Depth root r n p) : Depth root r' n p := by
  induction hd with
  | root h1 => exact .root h1
  | next _ h2 h3 ih => exact .next ih (h _ h2) h3

/-- The state before the round `i + 1`. -/
structure Round (root : File) (i : Nat) (l : Load) (files : List Path) : Prop where
  sound : ∀ p ∈ l.included, ∃ m, m ≤ i ∧ Depth root l.read m p
  level : ∀ p ∈ files, Depth root l.read (i + 1) p
  complete : ∀ m p, Depth root l.read m p → m ≤ i → p ∈ l.included
  next : ∀ p, Depth root l.read (i + 1) p → p ∈ l.included ∨ p ∈ files

theorem depth_pos {root : File} {r : List (Path × File)} {n : Nat} {p : Path} (h : Depth root r n p) : 1 ≤ n := by
  cases h <;> omega

theorem entry_unique {read : List (Path × File)} (h : (read.map (·.1)).Nodup) {p : Path} {f g : File} (hf : (p, f) ∈ read) (hg : (p, g) ∈ read) : f = g := by
  induction read with
  | nil => cases hf
  | cons e read ih =>
    rw [List.map_cons, List.nodup_cons] at h
    rcases List.mem_cons.1 hf with h1 | h1 <;> rcases List.mem_cons.1 hg with h2 | h2
    · rw [← h1] at h2; exact (Prod.mk.inj h2).2.symm
    · exact absurd (List.mem_map.2 ⟨(p, g), h2, by rw [← h1]⟩) h.1
    · exact absurd (List.mem_map.2 ⟨(p, f), h1, by rw [← h2]⟩) h.1
    · exact ih h.2 h1 h2

theorem round_step {cwd : Path} {fs : FileSystem} {base : List Path} {root : File} {i : Nat} {l : Load} {files : List Path} {s : Load × List Path}
    (hg : Good cwd fs base l) (hr : Round root i l files) (hs : Level cwd fs base l files s) : Round root (i + 1) s.1 s.2 := by
  obtain ⟨g, hi, new, n1, n2, n3⟩ := hs
  have hsub : ∀ e ∈ l.read, e ∈ s.1.read := fun e he => by rw [n1]; simp [he]
  have hnodup : (s.1.read.map (·.1)).Nodup := by rw [← g.names]; exact g.nodup
  -- entries of files that were included before are old
  have hold : ∀ p f, (p, f) ∈ s.1.read → p ∈ l.included → (p, f) ∈ l.read := by
    intro p f hpf hp
    rw [hg.names] at hp
    obtain ⟨e, he, rfl⟩ := List.mem_map.1 hp
    obtain ⟨p', f'⟩ := e
    have := entry_unique hnodup (hsub _ he) hpf
    rw [← this]
    exact he
  have hback : ∀ m p, Depth root s.1.read m p → m ≤ i + 1 → Depth root l.read m p := by
    intro m p hd
    induction hd with
    | root h1 => intro _; exact .root h1
    | next h1 h2 h3 ih =>
      intro hm
      have h4 := ih (by omega)
      exact .next h4 (hold _ _ h2 (hr.complete _ _ h4 (by omega))) h3
  refine ⟨?_, ?_, ?_, ?_⟩
  · intro p hp
    rcases (hi p).1 hp with h1 | h1
    · obtain ⟨m, h2, h3⟩ := hr.sound p h1
      exact ⟨m, by omega, depth_mono hsub h3⟩
    · exact ⟨i + 1, by omega, depth_mono hsub (hr.level p h1)⟩
  · intro q hq
    rw [n2] at hq
    obtain ⟨e, he, hq'⟩ := List.mem_flatMap.1 hq
    exact .next (depth_mono hsub (hr.level e.1 (n3 e he))) (by rw [n1]; simp [he]) hq'
  · intro m p hd hm
    have := hback m p hd hm
    rw [hi]
    by_cases h : m ≤ i
    · exact .inl (hr.complete m p this h)
    · have : m = i + 1 := by omega
      subst this
      exact hr.next p (hback _ p hd (by omega))
  · intro q hd
    generalize hk : i + 1 + 1 = k at hd
    cases hd with
    | root h1 => omega
    | @next n p _ f h1 h2 h3 =>
      by_cases hp : p ∈ l.included
      · obtain ⟨m, h4, h5⟩ := hr.sound p hp
        have h6 : Depth root l.read (m + 1) q := .next h5 (hold p f h2 hp) h3
        left
        rw [hi]
        by_cases h : m + 1 ≤ i
        · exact .inl (hr.complete _ _ h6 h)
        · have : m = i := by omega
          subst this
          exact hr.next q h6
      · right
        rw [n2]
        rw [n1] at h2
        rcases List.mem_append.1 h2 with h4 | h4
        · exact absurd (by rw [hg.names]; exact List.mem_map.2 ⟨_, h4, rfl⟩) hp
        · exact List.mem_flatMap.2 ⟨_, h4, h3⟩

theorem levels_spec {cwd : Path} {fs : FileSystem} {base : List Path} {root : File} (n : Nat) : ∀ {i : Nat} {l l' : Load} {files : List Path},
    Good cwd fs base l → Round root i l files → levels cwd fs n l files = .ok l' →
    Good cwd fs base l' ∧ ∀ p, p ∈ l'.included ↔ ∃ m, m ≤ i + n ∧ Depth root l'.read m p := by
  induction n with
  | zero =>
    intro i l l' files hg hr h
    cases h
    refine ⟨hg, fun p => ⟨hr.sound p, ?_⟩⟩
    rintro ⟨m, h1, h2⟩
    exact hr.complete m p h2 h1
  | succ n ih =>
    intro i l l' files hg hr h
    unfold levels at h
    cases hl : loop (include1 cwd fs) (l, []) files with
    | «throw» m => rw [hl] at h; cases h
    | ub m => rw [hl] at h; cases h
    | ok s =>
      rw [hl] at h
      have hs := level_spec hg files s hl
      have hr' := round_step hg hr hs
      simp only [Res.bind] at h
      cases hn : s.2 with
      | nil =>
        rw [hn] at h hr'
        cases h
        refine ⟨hs.good, fun p => ⟨fun hp => ?_, ?_⟩⟩
        · obtain ⟨m, h1, h2⟩ := hr'.sound p hp
          exact ⟨m, by omega, h2⟩
        · rintro ⟨m, hm, h2⟩
          clear hm
          have small : ∀ m q, Depth root s.1.read m q → m ≤ i + 2 → q ∈ s.1.included := by
            intro m q hd hm
            by_cases h : m ≤ i + 1
            · exact hr'.complete m q hd h
            · have : m = i + 1 + 1 := by omega
              subst this
              rcases hr'.next q hd with h3 | h3
              · exact h3
              · cases h3
          induction h2 with
          | root h1 => exact small 1 _ (.root h1) (by omega)
          | next h1 h2 h3 ih =>
            obtain ⟨m', h4, h5⟩ := hr'.sound _ ih
            exact small (m' + 1) _ (.next h5 h2 h3) (by omega)
      | cons q qs =>
        rw [hn] at h hr'
        obtain ⟨k1, k2⟩ := ih hs.good hr' h
        refine ⟨k1, fun p => ?_⟩
        rw [k2, show i + 1 + n = i + (n + 1) by omega]

theorem loop_include_ok {cwd : Path} {fs : FileSystem} {S : Path → Prop} (hS : ∀ p, S p → ∃ f, fs (absolute cwd p) = some f ∧ ∀ q ∈ f.includes, S q) :
    ∀ (files : List Path) (s : Load × List Path), (∀ p ∈ files, S p) → (∀ q ∈ s.2, S q) →
      ∃ s', loop (include1 cwd fs) s files = .ok s' ∧ ∀ q ∈ s'.2, S q := by
  intro files
  induction files with
  | nil => intro s _ h; exact ⟨s, rfl, h⟩
  | cons p files ih =>
    intro s hf hs
    unfold loop include1
    by_cases hp : p ∈ s.1.included
    · rw [if_pos hp]
      exact ih s (fun q hq => hf q (by simp [hq])) hs
    · rw [if_neg hp]
      obtain ⟨f, h1, h2⟩ := hS p (hf p (by simp))
      have ho : openWithHints cwd fs s.1.paths p = some f := by unfold openWithHints; rw [h1]
      rw [ho]
      refine ih _ (fun q hq => hf q (by simp [hq])) (fun q hq => ?_)
      rcases List.mem_append.1 hq with h3 | h3
      · exact hs q h3
      · exact h2 q h3

theorem levels_ok {cwd : Path} {fs : FileSystem} {S : Path → Prop} (hS : ∀ p, S p → ∃ f, fs (absolute cwd p) = some f ∧ ∀ q ∈ f.includes, S q) (n : Nat) :
    ∀ (l : Load) (files : List Path), (∀ p ∈ files, S p) → ∃ l', levels cwd fs n l files = .ok l' := by
  induction n with
  | zero => intro l _ _; exact ⟨l, rfl⟩
  | succ n ih =>
    intro l files hf
    obtain ⟨s, h1, h2⟩ := loop_include_ok hS files (l, []) hf (fun q hq => by cases hq)
    unfold levels
    rw [h1]
    simp only [Res.bind]
    cases hn : s.2 with
    | nil => exact ⟨s.1, rfl⟩
    | cons q qs => exact ih s.1 (q :: qs) (by rw [← hn]; exact h2)

end SilKit.ConfigFiles
