import Verif.Spec.ReplayChannel
namespace SilKit.ReplayChannel
open Spec

theorem split_slash (a acc s : Text) (h : '/' ∉ a) : split acc (a ++ '/' :: s) = (acc.reverse ++ a) :: split [] s := by
  induction a generalizing acc with
  | nil => simp [split]
  | cons x a ih =>
    have hx : x ≠ '/' := fun e => h (by simp [e])
    have ha : '/' ∉ a := fun e => h (List.mem_cons_of_mem _ e)
    rw [show split acc (x :: a ++ '/' :: s) = if x = '/' then acc.reverse :: split [] (a ++ '/' :: s) else split (x :: acc) (a ++ '/' :: s) from rfl, if_neg hx, ih _ ha]
    simp

theorem split_last (a acc : Text) (h : '/' ∉ a) : split acc a = if acc.reverse ++ a = [] then [] else [acc.reverse ++ a] := by
  induction a generalizing acc with
  | nil => simp [split]
  | cons x a ih =>
    have hx : x ≠ '/' := fun e => h (by simp [e])
    have ha : '/' ∉ a := fun e => h (List.mem_cons_of_mem _ e)
    unfold split
    rw [if_neg hx, ih _ ha]
    simp

/-- A text has a slash, or not. -/
theorem cut (s : Text) : '/' ∉ s ∨ ∃ a t, '/' ∉ a ∧ s = a ++ '/' :: t := by
  induction s with
  | nil => exact .inl (by simp)
  | cons x s ih =>
    by_cases hx : x = '/'
    · exact .inr ⟨[], s, by simp, by simp [hx]⟩
    · rcases ih with h | ⟨a, t, ha, e⟩
      · exact .inl (by simp [h, Ne.symm hx])
      · exact .inr ⟨x :: a, t, by simp [ha, Ne.symm hx], by simp [e]⟩

theorem split_path (n p s : Text) (hn : '/' ∉ n) (hp : '/' ∉ p) (hs : Plain s) : split [] (path n p s) = [n, p, s] := by
  unfold path
  rw [split_slash _ _ _ hn, split_slash _ _ _ hp, split_last _ _ hs.2]
  simp [hs.1]

/-- The first three parts of a text. -/
theorem split_three (t x y z : Text) (r : List Text) (h : split [] t = x :: y :: z :: r) :
    ('/' ∉ x ∧ '/' ∉ y ∧ '/' ∉ z) ∧ ((t = path x y z ∧ z ≠ []) ∨ ∃ rest, t = path x y z ++ '/' :: rest) := by
  rcases cut t with ht | ⟨a, t1, ha, rfl⟩
  · rw [split_last _ _ ht] at h; split at h <;> simp at h
  rw [split_slash _ _ _ ha] at h
  simp only [List.reverse_nil, List.nil_append, List.cons.injEq] at h
  obtain ⟨rfl, h⟩ := h
  rcases cut t1 with ht | ⟨b, t2, hb, rfl⟩
  · rw [split_last _ _ ht] at h; split at h <;> simp at h
  rw [split_slash _ _ _ hb] at h
  simp only [List.reverse_nil, List.nil_append, List.cons.injEq] at h
  obtain ⟨rfl, h⟩ := h
  rcases cut t2 with ht | ⟨d, t3, hd, rfl⟩
  · rw [split_last _ _ ht] at h
    split at h
    · simp at h
    · rename_i hne
      simp only [List.reverse_nil, List.nil_append, List.cons.injEq] at h hne
      obtain ⟨rfl, _⟩ := h
      exact ⟨⟨ha, hb, ht⟩, .inl ⟨rfl, hne⟩⟩
  · rw [split_slash _ _ _ hd] at h
    simp only [List.reverse_nil, List.nil_append, List.cons.injEq] at h
    obtain ⟨rfl, _⟩ := h
    exact ⟨⟨ha, hb, hd⟩, .inr ⟨t3, by simp [path]⟩⟩

theorem fits_iff (n : NetworkType) (m : MessageType) : Fits n m ↔ toMessageType n = some m := by
  cases n <;> cases m <;> simp [Fits, toMessageType]

theorem matchSilKit_recorded (c : Controller) (ch : Channel) (hn : Plain c.name) (hr : Recorded ch) :
    matchSilKit c ch = some (decide (ch.infos "mdf/source_info_name" = some (path c.network c.participant c.name))) := by
  obtain ⟨n, p, s, h1, h2, h3, e⟩ := hr
  unfold matchSilKit
  rw [e]
  dsimp only
  rw [split_path n p s h1.2 h2.2 h3]
  dsimp only
  congr 1
  rw [Bool.eq_iff_iff]
  simp only [Bool.and_eq_true, beq_iff_eq, decide_eq_true_eq, Option.some.injEq]
  constructor
  · rintro ⟨⟨rfl, rfl⟩, rfl⟩; rfl
  · intro e'
    have : split [] (path n p s) = split [] (path c.network c.participant c.name) := by rw [e']
    rw [split_path n p s h1.2 h2.2 h3] at this
    obtain ⟨_, hh⟩ := split_three _ _ _ _ _ this.symm
    rcases hh with ⟨_, _⟩ | ⟨rest, hrest⟩
    · -- the text has exactly two slashes, so that none is in a name
      have count : ∀ x y z : Text, (path x y z).count '/' = x.count '/' + y.count '/' + z.count '/' + 2 := by
        intro x y z
        simp [path, List.count_append, List.count_cons]
        omega
      have k := congrArg (List.count '/') e'
      rw [count, count] at k
      have z : ∀ x : Text, '/' ∉ x → x.count '/' = 0 := fun x hx => List.count_eq_zero.mpr hx
      rw [z n h1.2, z p h2.2, z s h3.2] at k
      have z1 : '/' ∉ c.network := List.count_eq_zero.mp (by omega)
      have z2 : '/' ∉ c.participant := List.count_eq_zero.mp (by omega)
      rw [split_path _ _ _ z1 z2 hn] at this
      simp only [List.cons.injEq, and_true] at this
      exact ⟨⟨this.1, this.2.1⟩, this.2.2⟩
    · rw [← e'] at hrest
      have := congrArg (List.count '/') hrest
      simp [List.count_append, List.count_cons] at this

theorem hasSelection_iff (s : Selection) : hasSelection s = true ↔ Selects s := by
  obtain ⟨a, b, c, d, e, f⟩ := s
  unfold hasSelection Selects wanted
  simp only [Bool.or_eq_true, Option.isSome_iff_exists, List.mem_cons, Prod.mk.injEq, List.not_mem_nil, or_false]
  constructor
  · rintro (((((⟨v, h⟩ | ⟨v, h⟩) | ⟨v, h⟩) | ⟨v, h⟩) | ⟨v, h⟩) | ⟨v, h⟩)
    · exact ⟨_, v, .inl ⟨rfl, h.symm⟩⟩
    · exact ⟨_, v, .inr (.inl ⟨rfl, h.symm⟩)⟩
    · exact ⟨_, v, .inr (.inr (.inl ⟨rfl, h.symm⟩))⟩
    · exact ⟨_, v, .inr (.inr (.inr (.inl ⟨rfl, h.symm⟩)))⟩
    · exact ⟨_, v, .inr (.inr (.inr (.inr (.inl ⟨rfl, h.symm⟩))))⟩
    · exact ⟨_, v, .inr (.inr (.inr (.inr (.inr ⟨rfl, h.symm⟩))))⟩
  · rintro ⟨k, v, ⟨_, h⟩ | ⟨_, h⟩ | ⟨_, h⟩ | ⟨_, h⟩ | ⟨_, h⟩ | ⟨_, h⟩⟩
    · exact .inl (.inl (.inl (.inl (.inl ⟨v, h.symm⟩))))
    · exact .inl (.inl (.inl (.inl (.inr ⟨v, h.symm⟩))))
    · exact .inl (.inl (.inl (.inr ⟨v, h.symm⟩)))
    · exact .inl (.inl (.inr ⟨v, h.symm⟩))
    · exact .inl (.inr ⟨v, h.symm⟩)
    · exact .inr ⟨v, h.symm⟩

theorem setAndEqual_iff (o : Option Text) (v : Text) : setAndEqual o v = true ↔ ∀ w, o = some w → v = w := by
  cases o with
  | none => simp [setAndEqual]
  | some g =>
    simp only [setAndEqual, beq_iff_eq, Option.some.injEq]
    exact ⟨fun h w hw => by rw [← h, hw], fun h => (h g rfl).symm⟩

theorem matchMdf_complete (s : Selection) (ch : Channel) (h : Complete ch) : ∃ b, matchMdf s ch = some b ∧ (b = true ↔ Selected s ch) := by
  have get : ∀ k, (k, none) ∈ wanted {} → ∃ v, ch.infos k = some v := fun k hk => Option.isSome_iff_exists.mp (h k none hk)
  obtain ⟨v1, e1⟩ := get "mdf/channel_name" (by decide)
  obtain ⟨v2, e2⟩ := get "mdf/source_info_name" (by decide)
  obtain ⟨v3, e3⟩ := get "mdf/source_info_path" (by decide)
  obtain ⟨v4, e4⟩ := get "mdf/channel_group_acquisition_name" (by decide)
  obtain ⟨v5, e5⟩ := get "mdf/channel_group_name" (by decide)
  obtain ⟨v6, e6⟩ := get "mdf/channel_group_path" (by decide)
  refine ⟨_, by unfold matchMdf; simp only [e1, e2, e3, e4, e5, e6]; rfl, ?_⟩
  simp only [Bool.and_eq_true, setAndEqual_iff]
  unfold Selected wanted
  constructor
  · rintro ⟨⟨⟨⟨⟨h1, h3⟩, h2⟩, h4⟩, h6⟩, h5⟩ k v hm
    simp only [List.mem_cons, Prod.mk.injEq, List.not_mem_nil, or_false] at hm
    rcases hm with ⟨rfl, hv⟩ | ⟨rfl, hv⟩ | ⟨rfl, hv⟩ | ⟨rfl, hv⟩ | ⟨rfl, hv⟩ | ⟨rfl, hv⟩
    · rw [e1, h1 v hv.symm]
    · rw [e2, h2 v hv.symm]
    · rw [e3, h3 v hv.symm]
    · rw [e4, h4 v hv.symm]
    · rw [e5, h5 v hv.symm]
    · rw [e6, h6 v hv.symm]
  · intro hs
    refine ⟨⟨⟨⟨⟨?_, ?_⟩, ?_⟩, ?_⟩, ?_⟩, ?_⟩ <;> intro w hw
    · have := hs "mdf/channel_name" w (by simp [hw]); rw [e1] at this; simpa using this
    · have := hs "mdf/source_info_path" w (by simp [hw]); rw [e3] at this; simpa using this
    · have := hs "mdf/source_info_name" w (by simp [hw]); rw [e2] at this; simpa using this
    · have := hs "mdf/channel_group_acquisition_name" w (by simp [hw]); rw [e4] at this; simpa using this
    · have := hs "mdf/channel_group_path" w (by simp [hw]); rw [e6] at this; simpa using this
    · have := hs "mdf/channel_group_name" w (by simp [hw]); rw [e5] at this; simpa using this

/-- The loop, without a selection. -/
theorem loop_own (type : MessageType) (sel : Selection) (c : Controller) (P : Channel → Bool) (hsel : hasSelection sel = false) (l acc : List Channel)
    (h : ∀ ch ∈ l, ch.type = type → matchSilKit c ch = some (P ch)) :
    loop false type sel c acc l = .candidates (acc ++ l.filter (fun ch => decide (ch.type = type) && P ch)) := by
  induction l generalizing acc with
  | nil => simp [loop]
  | cons ch l ih =>
    have ih' := fun acc => ih acc (fun x hx => h x (List.mem_cons_of_mem _ hx))
    unfold loop
    rw [if_neg (by simp), hsel]
    simp only [Bool.false_eq_true, if_false]
    split
    · rename_i hne; rw [ih']; simp [hne]
    · rename_i hne
      have heq : ch.type = type := by simpa using hne
      rw [h ch (by simp) heq]
      dsimp only
      rw [ih']
      cases hP : P ch <;> simp [heq, hP]

/-- The loop, with a selection. -/
theorem loop_selected (type : MessageType) (sel : Selection) (c : Controller) (P : Channel → Bool) (hsel : hasSelection sel = true) (l acc : List Channel)
    (h : ∀ ch ∈ l, matchMdf sel ch = some (P ch)) :
    loop false type sel c acc l = .candidates (acc ++ l.filter P) := by
  induction l generalizing acc with
  | nil => simp [loop]
  | cons ch l ih =>
    have ih' := fun acc => ih acc (fun x hx => h x (List.mem_cons_of_mem _ hx))
    unfold loop
    rw [if_neg (by simp), hsel, h ch (by simp)]
    simp only [if_true]
    rw [ih']
    cases hP : P ch <;> simp [hP]

theorem loop_breaks_own (type : MessageType) (sel : Selection) (c : Controller) (hsel : hasSelection sel = false) (l acc : List Channel)
    (h : ∃ ch ∈ l, ch.type = type ∧ matchSilKit c ch = none) : loop false type sel c acc l = .outOfRange := by
  induction l generalizing acc with
  | nil => obtain ⟨_, h, _⟩ := h; cases h
  | cons x l ih =>
    obtain ⟨ch, hm, ht, hn⟩ := h
    unfold loop
    rw [if_neg (by simp), hsel]
    simp only [Bool.false_eq_true, if_false]
    rcases List.mem_cons.mp hm with rfl | hm
    · simp [ht, hn]
    · split
      · exact ih _ ⟨ch, hm, ht, hn⟩
      · split
        · rfl
        · exact ih _ ⟨ch, hm, ht, hn⟩

theorem loop_breaks_selected (type : MessageType) (sel : Selection) (c : Controller) (hsel : hasSelection sel = true) (l acc : List Channel)
    (h : ∃ ch ∈ l, matchMdf sel ch = none) : loop false type sel c acc l = .outOfRange := by
  induction l generalizing acc with
  | nil => obtain ⟨_, h, _⟩ := h; cases h
  | cons x l ih =>
    obtain ⟨ch, hm, hn⟩ := h
    unfold loop
    rw [if_neg (by simp), hsel]
    simp only [if_true]
    rcases List.mem_cons.mp hm with rfl | hm
    · rw [hn]
    · split
      · rfl
      · exact ih _ ⟨ch, hm, hn⟩

end SilKit.ReplayChannel
