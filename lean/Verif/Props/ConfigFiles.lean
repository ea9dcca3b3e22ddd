import Verif.Lemmas.ConfigFiles
/-!
# Properties of configurations with includes (C47, C48)
-/
namespace SilKit.Props
open SilKit SilKit.ConfigFiles SilKit.ConfigFiles.Spec

/-! ## C47: which files are read -/

theorem process_good {cwd : Path} {fs : FileSystem} {paths : List Path} {root : File} {l : Load} (h : processIncludes cwd fs paths root = .ok l) :
    Good cwd fs (appendHints paths root.hints) l ∧ ∀ p, p ∈ l.included ↔ ∃ m, m ≤ 127 ∧ Depth root l.read m p := by
  have := levels_spec (cwd := cwd) (fs := fs) (base := appendHints paths root.hints) (root := root) 127 (i := 0)
    (l := { paths := appendHints paths root.hints }) (l' := l) (files := root.includes) ?_ ?_ h
  · simpa using this
  · refine ⟨rfl, List.nodup_nil, fun x => ?_, fun e he => (nomatch he), fun e he => (nomatch he)⟩
    constructor
    · exact .inl
    · rintro (h1 | ⟨e, h1, _⟩)
      · exact h1
      · cases h1
  · refine ⟨fun p hp => (nomatch hp), fun p hp => .root hp, fun m p hd hm => ?_, fun p hd => .inr ?_⟩
    · exact absurd (depth_pos hd) (by omega)
    · generalize hk : 0 + 1 = k at hd
      cases hd with
      | root h1 => exact h1
      | next h1 _ _ => exact absurd (depth_pos h1) (by omega)

/-- **C47.** When the includes of a configuration could be processed, each file was read once, by its name, and exactly those files were read that can be
reached from the root by at most 127 includes, however the files include each other. -/
theorem C47_each_file_is_read_once_partial {cwd : Path} {fs : FileSystem} {paths : List Path} {root : File} {l : Load}
    (h : processIncludes cwd fs paths root = .ok l) :
    (l.read.map (·.1)).Nodup ∧ ∀ p, p ∈ l.read.map (·.1) ↔ ∃ n, n ≤ 127 ∧ Depth root l.read n p := by
  obtain ⟨g, h2⟩ := process_good h
  rw [← g.names]
  exact ⟨g.nodup, h2⟩

/-- **C47.** Each file that was read is the file of that name in the working directory if there is one, or else the one of that name behind one of the search
paths; the search paths are those that were given and the hints of the root and the files that were read, with separators. -/
theorem C47_files_are_found {cwd : Path} {fs : FileSystem} {paths : List Path} {root : File} {l : Load} (h : processIncludes cwd fs paths root = .ok l) :
    (∀ e ∈ l.read, (∀ f, fs (absolute cwd e.1) = some f → e.2 = f) ∧
      (fs (absolute cwd e.1) = some e.2 ∨ ∃ x ∈ l.paths, fs (absolute cwd (x ++ e.1)) = some e.2)) ∧
    ∀ x, x ∈ l.paths ↔ x ∈ paths ∨ (∃ hint ∈ root.hints, Separated hint x) ∨ ∃ e ∈ l.read, ∃ hint ∈ e.2.hints, Separated hint x := by
  obtain ⟨g, _⟩ := process_good h
  refine ⟨fun e he => ⟨fun f hf => (g.direct e he f hf).symm, g.found e he⟩, fun x => ?_⟩
  rw [g.paths, mem_appendHints, or_assoc]

/-- **C47.** If all files that are included can be opened in the working directory, including them succeeds, also if files include each other in a circle. -/
theorem C47_includes_terminate {cwd : Path} {fs : FileSystem} {paths : List Path} {root : File} (S : Path → Prop)
    (hS : ∀ p, S p → ∃ f, fs (absolute cwd p) = some f ∧ ∀ q ∈ f.includes, S q) (hroot : ∀ p ∈ root.includes, S p) :
    ∃ l, processIncludes cwd fs paths root = .ok l :=
  levels_ok hS 127 _ _ hroot

/-- **C47.** A configuration is the merged configuration of the root and the files that were read. -/
theorem C47_configuration_of_files {cwd : Path} {fs : FileSystem} {paths : List Path} {root : File} (hv : root.schemaVersion.getD 1 = 1) :
    (∀ l, processIncludes cwd fs paths root = .ok l → withIncludes cwd fs paths root = merge ((root :: l.read.map (·.2)).map deserialize)) ∧
    ((∀ l, processIncludes cwd fs paths root ≠ .ok l) → ∀ c, withIncludes cwd fs paths root ≠ .ok c) := by
  refine ⟨fun l hl => ?_, fun hn c hc => ?_⟩
  · unfold withIncludes
    rw [if_neg (by simp [hv]), hl]
    rfl
  · unfold withIncludes at hc
    rw [if_neg (by simp [hv])] at hc
    cases hp : processIncludes cwd fs paths root with
    | ok l => exact hn l hp
    | «throw» m => rw [hp] at hc; cases hc
    | ub m => rw [hp] at hc; cases hc

/-- Two files that include each other; the second is found behind a hint. -/
def pairFs : FileSystem := fun p =>
  if p = [47, 119, 47, 1] then some { includes := [[2]], hints := [[3]] }
  else if p = [47, 119, 47, 3, 47, 2] then some { includes := [[1], [2]], extensionPaths := [9] }
  else none

/-- The hypotheses are met: from `1`, `2` is included, which includes both again. -/
example : ∃ l, processIncludes [47, 119] pairFs [] { includes := [[1]] } = .ok l ∧ l.read.map (·.1) = [[1], [2]] ∧ l.paths = [[3, 47]] :=
  ⟨_, rfl, by decide +kernel, by decide +kernel⟩

example : ∃ c, fromString [47, 119] pairFs { includes := [[1]] } = .ok c ∧ c.extensionPaths = [9] := ⟨_, rfl, by decide +kernel⟩

/-- A circle of two files in the working directory. -/
example : ∃ S : Path → Prop, (∀ p, S p → ∃ f, (fun q : Path => if q = [47, 119, 47, 1] then some { includes := [[2]] } else
      if q = [47, 119, 47, 2] then some ({ includes := [[1]] } : File) else none) (absolute [47, 119] p) = some f ∧ ∀ q ∈ f.includes, S q) ∧
    ∀ p ∈ ({ includes := [[1]] } : File).includes, S p := by
  refine ⟨fun p => p = [1] ∨ p = [2], ?_, by simp⟩
  rintro p (rfl | rfl)
  · exact ⟨{ includes := [[2]] }, by simp [absolute], by simp⟩
  · exact ⟨{ includes := [[1]] }, by simp [absolute], by simp⟩

/-! ### Deviations -/

theorem dropWhile_append_mem {n : Path} (hn : 47 ∉ n) (d : Path) : (n ++ 47 :: d).dropWhile (· ≠ 47) = 47 :: d := by
  induction n with
  | nil => simp
  | cons c n ih =>
    have h1 : c ≠ 47 := fun h => hn (by simp [h])
    have h2 : 47 ∉ n := fun h => hn (by simp [h])
    rw [List.cons_append, List.dropWhile_cons_of_pos (by simp [h1]), ih h2]

theorem parentPath_file {dir n : Path} (hd : dir ≠ []) (hl : dir.getLast? ≠ some 47) (hn : 47 ∉ n) : parentPath (dir ++ 47 :: n) = dir := by
  have h1 : ((dir ++ 47 :: n).reverse.dropWhile (· ≠ 47)).reverse = dir ++ [47] := by
    have : (dir ++ 47 :: n).reverse = n.reverse ++ 47 :: dir.reverse := by simp
    rw [this, dropWhile_append_mem (by simpa using hn)]
    simp
  have h2 : stripSlashes (dir ++ [47]) = dir := by
    unfold stripSlashes
    have h3 : (dir ++ [47]).reverse = 47 :: dir.reverse := by simp
    rw [h3, List.dropWhile_cons_of_pos (by simp)]
    cases hr : dir.reverse with
    | nil => exact absurd (by simpa using hr) hd
    | cons c r =>
      have h4 : c ≠ 47 := by
        intro hc
        apply hl
        rw [← List.reverse_reverse dir, hr, hc]
        simp
      rw [List.dropWhile_cons_of_neg (by simp [h4]), ← hr]
      simp
  unfold parentPath
  rw [h1, h2]
  cases dir with
  | nil => exact absurd rfl hd
  | cons c d => rfl

theorem split_last_slash {a b m n : Path} (hm : 47 ∉ m) (hn : 47 ∉ n) (h : a ++ 47 :: m = b ++ 47 :: n) : a = b := by
  have h1 : (a ++ 47 :: m).reverse = m.reverse ++ 47 :: a.reverse := by simp
  have h2 : (b ++ 47 :: n).reverse = n.reverse ++ 47 :: b.reverse := by simp
  have h3 := dropWhile_append_mem (n := m.reverse) (by simpa using hm) a.reverse
  have h4 := dropWhile_append_mem (n := n.reverse) (by simpa using hn) b.reverse
  rw [← h1, h, h2, h4] at h3
  have := (List.cons.inj h3).2
  simpa using this.symm

/-- Deviation from C47: the directory of the root file is not searched. If the files lie in a directory other than the working directory, no file that is
included from there by its name is found, although the path of the including file is promised to be a search path: the directory is prepended without a
separator. -/
theorem C47_files_beside_the_root_are_not_found {cwd dir r n : Path} {rest : List Path} {fs : FileSystem} {root : File} (hdir : dir.head? = some 47)
    (hlast : dir.getLast? ≠ some 47) (hr : 47 ∉ r) (hn : 47 ∉ n) (hcwd : cwd ≠ dir) (hfs : ∀ q f, fs q = some f → ∃ m, 47 ∉ m ∧ q = dir ++ 47 :: m)
    (hroot : fs (dir ++ 47 :: r) = some root) (hhints : root.hints = []) (hinc : root.includes = n :: rest) (hver : root.schemaVersion.getD 1 = 1) :
    ∀ c, fromFile cwd fs (dir ++ 47 :: r) ≠ .ok c := by
  intro c hc
  have hne : dir ≠ [] := by intro h; rw [h] at hdir; cases hdir
  have habs : ∀ t, absolute cwd (dir ++ t) = dir ++ t := by
    intro t
    unfold absolute
    rw [if_pos]
    cases dir with
    | nil => cases hdir
    | cons d ds => simpa using hdir
  have hpar : configParentPath cwd (dir ++ 47 :: r) = dir := by
    unfold configParentPath
    rw [habs, parentPath_file hne hlast hr]
  have hopen : openWithHints cwd fs [dir] (dir ++ 47 :: r) = some root := by
    unfold openWithHints
    rw [habs, hroot]
  unfold fromFile at hc
  rw [hpar, hopen] at hc
  simp only at hc
  obtain ⟨k1, k2⟩ := C47_configuration_of_files (cwd := cwd) (fs := fs) (paths := [dir]) hver
  refine k2 (fun l hl => ?_) c hc
  have hnone : openWithHints cwd fs [dir] n = none := by
    unfold openWithHints
    have e1 : fs (absolute cwd n) = none := by
      cases hx : fs (absolute cwd n) with
      | none => rfl
      | some f =>
        obtain ⟨m', h1, h2⟩ := hfs _ _ hx
        unfold absolute at h2
        by_cases h3 : n.head? = some 47
        · exact absurd (List.mem_of_mem_head? (by rw [h3]; rfl)) hn
        · rw [if_neg h3] at h2
          exact absurd (split_last_slash hn h1 h2) hcwd
    have e2 : fs (absolute cwd (dir ++ n)) = none := by
      cases hx : fs (absolute cwd (dir ++ n)) with
      | none => rfl
      | some f =>
        obtain ⟨m', h1, h2⟩ := hfs _ _ hx
        rw [habs] at h2
        have := List.append_cancel_left h2
        exact absurd (by rw [this]; simp) hn
    rw [e1]
    simp [e2]
  unfold processIncludes levels at hl
  rw [hhints, hinc] at hl
  simp only [appendHints, List.foldl_nil, loop, include1, hnone, List.not_mem_nil, if_false, Res.bind] at hl
  cases hl

/-- The hypotheses are met: with the working directory `/w`, the root `/d/r` includes `n`, which is at `/d/n`. -/
example : fromFile [47, 119] (fun p => if p = [47, 100, 47, 114] then some { includes := [[110]] } else if p = [47, 100, 47, 110] then some {} else none)
    [47, 100, 47, 114] = .throw "The config file could not be opened!" := rfl

/-- In the working directory `/d`, the same files are found. -/
example : ∃ c, fromFile [47, 100] (fun p => if p = [47, 100, 47, 114] then some { includes := [[110]] } else if p = [47, 100, 47, 110] then some {} else none)
    [47, 100, 47, 114] = .ok c := ⟨_, rfl⟩

/-- Files that include each other in a chain: `[k]` includes `[k + 1]`, up to `[N]`; each has a CAN controller. -/
def chainFile (N k : Nat) : File :=
  { includes := if k < N then [[k + 1]] else [], elems := fun kind => if kind = .can then [{ name := k }] else [] }

def chainFs (N : Nat) : FileSystem := fun p =>
  match p with
  | [119, 47, k] => if k ≤ N ∧ k ≠ 47 then some (chainFile N k) else none
  | _ => none

/-- Deviation from C47: files that are reached by more than 127 includes are silently ignored: in a chain of any length, the file after 128 includes is not
read, no error is reported, and its controller is not in the configuration. -/
theorem C47_deep_includes_are_ignored (N : Nat) (hN : 228 ≤ N) :
    ∃ l, processIncludes [119] (chainFs N) [] (chainFile N 100) = .ok l ∧ [227] ∈ l.read.map (·.1) ∧ [228] ∉ l.read.map (·.1) ∧
      Depth (chainFile N 100) l.read 128 [228] := by
  have habs : ∀ k : Nat, k ≠ 47 → absolute [119] [k] = [119, 47, k] := by
    intro k hk
    simp [absolute, hk]
  obtain ⟨l, hl⟩ := C47_includes_terminate (cwd := [119]) (fs := chainFs N) (paths := []) (root := chainFile N 100)
    (fun p => ∃ k, 100 ≤ k ∧ k ≤ N ∧ p = [k]) (by
      rintro p ⟨k, h1, h2, rfl⟩
      refine ⟨chainFile N k, ?_, ?_⟩
      · rw [habs k (by omega)]
        simp only [chainFs]
        rw [if_pos ⟨h2, by omega⟩]
      · intro q hq
        simp only [chainFile] at hq
        by_cases h : k < N
        · rw [if_pos h, List.mem_singleton] at hq
          exact ⟨k + 1, by omega, by omega, hq⟩
        · rw [if_neg h] at hq; cases hq) (by
      intro q hq
      simp only [chainFile] at hq
      rw [if_pos (by omega), List.mem_singleton] at hq
      exact ⟨101, by omega, by omega, hq⟩)
  obtain ⟨h1, h2⟩ := C47_each_file_is_read_once_partial hl
  obtain ⟨h3, _⟩ := C47_files_are_found hl
  have hfile : ∀ k f, 100 ≤ k → k ≤ N → ([k], f) ∈ l.read → f = chainFile N k := by
    intro k f hk1 hk2 hf
    refine (h3 _ hf).1 _ ?_
    rw [habs k (by omega)]
    simp only [chainFs]
    rw [if_pos ⟨hk2, by omega⟩]
  have hdepth : ∀ n p, Depth (chainFile N 100) l.read n p → p = [100 + n] ∧ 100 + n ≤ N := by
    intro n p hd
    induction hd with
    | root h =>
      simp only [chainFile] at h
      rw [if_pos (by omega), List.mem_singleton] at h
      exact ⟨h, by omega⟩
    | @next n p q f _ h5 h6 ih =>
      obtain ⟨rfl, h7⟩ := ih
      rw [hfile (100 + n) f (by omega) h7 h5] at h6
      simp only [chainFile] at h6
      by_cases h : 100 + n < N
      · rw [if_pos h, List.mem_singleton] at h6
        exact ⟨h6, by omega⟩
      · rw [if_neg h] at h6; cases h6
  have hreach : ∀ n, n ≤ 127 → Depth (chainFile N 100) l.read (n + 1) [100 + (n + 1)] := by
    intro n
    induction n with
    | zero =>
      intro _
      refine .root ?_
      simp only [chainFile]
      rw [if_pos (by omega)]
      simp
    | succ n ih =>
      intro hn
      have h5 := ih (by omega)
      have h6 : [100 + (n + 1)] ∈ l.read.map (·.1) := (h2 _).2 ⟨n + 1, by omega, h5⟩
      obtain ⟨⟨p, f⟩, h7, h8⟩ := List.mem_map.1 h6
      simp only at h8
      subst h8
      refine .next h5 h7 ?_
      rw [hfile (100 + (n + 1)) f (by omega) (by omega) h7]
      simp only [chainFile]
      rw [if_pos (by omega), List.mem_singleton]
      congr 1
  refine ⟨l, hl, (h2 _).2 ⟨127, by omega, hreach 126 (by omega)⟩, ?_, hreach 127 (by omega)⟩
  intro h
  obtain ⟨n, h5, h6⟩ := (h2 _).1 h
  have := (hdepth n _ h6).1
  have h7 := (List.cons.inj this).1
  omega

/-- A witness of this for the configuration: a controller of the file that is not read is missing. -/
example : (match fromString [119] (chainFs 230) (chainFile 230 100) with
    | .ok c => decide ((c.elems .can).length = 128 ∧ ∀ e ∈ c.elems .can, e.name ≠ 228)
    | _ => false) = true := by decide +kernel

theorem read_files {cwd : Path} {fs : FileSystem} {paths : List Path} {root : File} {l : Load} (h : processIncludes cwd fs paths root = .ok l) {p : Path}
    {f : File} (hp : p ∈ root.includes) (hf : fs (absolute cwd p) = some f) : (p, f) ∈ l.read := by
  obtain ⟨_, h2⟩ := C47_each_file_is_read_once_partial h
  have h3 : p ∈ l.read.map (·.1) := (h2 p).2 ⟨1, by omega, .root hp⟩
  obtain ⟨⟨q, g⟩, h4, h5⟩ := List.mem_map.1 h3
  simp only at h5
  subst h5
  rw [← ((C47_files_are_found h).1 _ h4).1 f hf]
  exact h4

theorem merged_iff {cwd : Path} {fs : FileSystem} {paths : List Path} {root : File} {c : Config} (h : withIncludes cwd fs paths root = .ok c) :
    ∃ l, processIncludes cwd fs paths root = .ok l ∧ Mergeable (root :: l.read.map (·.2)) ∧ Merged (root :: l.read.map (·.2)) c ∧
      c.collectFromRemote = none ∧ c.updateInterval = 1 := by
  unfold withIncludes at h
  by_cases hv : root.schemaVersion.getD 1 ≠ 1
  · rw [if_pos hv] at h; cases h
  · rw [if_neg hv] at h
    cases hp : processIncludes cwd fs paths root with
    | «throw» m => rw [hp] at h; cases h
    | ub m => rw [hp] at h; cases h
    | ok l =>
      rw [hp] at h
      simp only [Res.bind] at h
      obtain ⟨h1, h2⟩ := merge_spec (root :: l.read.map (·.2))
      by_cases hm : Mergeable (root :: l.read.map (·.2))
      · obtain ⟨c', h3, h4, h5⟩ := h1 hm
        rw [h] at h3
        cases h3
        exact ⟨l, rfl, hm, h4, h5⟩
      · obtain ⟨m, h3⟩ := h2 hm
        rw [h] at h3
        cases h3

/-- Deviation from C47: a file that includes itself is read twice when it is the root, so that it is refused if it has, for example, a participant name,
although multiple inclusions of the same file are promised to be prevented. -/
theorem C47_root_is_included_again {cwd p : Path} {fs : FileSystem} {root : File} {v : Nat} (h : fs (absolute cwd p) = some root) (hp : p ∈ root.includes)
    (hn : root.participantName = some v) : ∀ c, fromFile cwd fs p ≠ .ok c := by
  intro c hc
  unfold fromFile openWithHints at hc
  rw [h] at hc
  simp only at hc
  obtain ⟨l, h1, h2, _⟩ := merged_iff hc
  have h3 : (p, root) ∈ l.read := read_files h1 hp h
  have h4 : root ∈ l.read.map (·.2) := List.mem_map.2 ⟨_, h3, rfl⟩
  have h5 := h2.name
  rw [List.filterMap_cons, hn] at h5
  have h6 : v ∈ (l.read.map (·.2)).filterMap (·.participantName) := List.mem_filterMap.2 ⟨root, h4, hn⟩
  have := List.length_pos_of_mem h6
  simp only [List.length_cons] at h5
  omega

/-- Deviation from C47: a file is read again if it is included by another name (such as `./f` and `f`). -/
theorem C47_other_name_is_read_again {cwd p q : Path} {fs : FileSystem} {root f : File} {v : Nat} (hpq : p ≠ q) (h1 : fs (absolute cwd p) = some f)
    (h2 : fs (absolute cwd q) = some f) (hp : p ∈ root.includes) (hq : q ∈ root.includes) (hn : f.participantName = some v) :
    ∀ c, fromString cwd fs root ≠ .ok c := by
  intro c hc
  obtain ⟨l, k1, k2, _⟩ := merged_iff hc
  have k3 : (p, f) ∈ l.read := read_files k1 hp h1
  have k4 : (q, f) ∈ l.read := read_files k1 hq h2
  have k5 : 2 ≤ ((l.read.map (·.2)).filterMap (·.participantName)).length := by
    have : ∀ r : List (Path × File), (p, f) ∈ r → (q, f) ∈ r → 2 ≤ ((r.map (·.2)).filterMap (·.participantName)).length := by
      have one : ∀ (r : List (Path × File)) (x : Path), (x, f) ∈ r → 1 ≤ ((r.map (·.2)).filterMap (·.participantName)).length := by
        intro r x hx
        have : v ∈ (r.map (·.2)).filterMap (·.participantName) := List.mem_filterMap.2 ⟨f, List.mem_map.2 ⟨_, hx, rfl⟩, hn⟩
        exact List.length_pos_of_mem this
      intro r
      induction r with
      | nil => intro h; cases h
      | cons e r ih =>
        intro m1 m2
        rw [List.map_cons, List.filterMap_cons]
        rcases List.mem_cons.1 m1 with e1 | e1 <;> rcases List.mem_cons.1 m2 with e2 | e2
        · rw [← e2] at e1; exact absurd (Prod.mk.inj e1).1 hpq
        · have := one r q e2
          rw [← e1]
          simp only [hn, List.length_cons]
          omega
        · have := one r p e1
          rw [← e2]
          simp only [hn, List.length_cons]
          omega
        · have := ih e1 e2
          cases e.2.participantName with
          | none => simpa using this
          | some w => simp only [List.length_cons]; omega
    exact this l.read k3 k4
  have k6 := k2.name
  rw [List.filterMap_cons] at k6
  cases hr : root.participantName with
  | none => rw [hr] at k6; simp only at k6; omega
  | some w => rw [hr] at k6; simp only [List.length_cons] at k6; omega

/-! ## C48: merging -/

/-- **C48.** A configuration is accepted if and only if the root and the included files fit together, and then it is what they make up; if not, an error is
reported. -/
theorem C48_merge_rules_partial {cwd : Path} {fs : FileSystem} {paths : List Path} {root : File} {l : Load} (hv : root.schemaVersion.getD 1 = 1)
    (h : processIncludes cwd fs paths root = .ok l) :
    (Mergeable (root :: l.read.map (·.2)) → ∃ c, withIncludes cwd fs paths root = .ok c ∧ Merged (root :: l.read.map (·.2)) c) ∧
    (¬ Mergeable (root :: l.read.map (·.2)) → ∃ m, withIncludes cwd fs paths root = .throw m) := by
  rw [(C47_configuration_of_files hv).1 l h]
  obtain ⟨h1, h2⟩ := merge_spec (root :: l.read.map (·.2))
  refine ⟨fun hm => ?_, h2⟩
  obtain ⟨c, h3, h4, _⟩ := h1 hm
  exact ⟨c, h3, h4⟩

/-- **C48.** For CAN, LIN and Ethernet controllers, trace sinks and trace sources, two elements are accepted as the same if and only if all their properties
match; for FlexRay controllers this holds apart from the transmit buffers. -/
theorem C48_duplicates_match_partial {k : Kind} {a b : Elem} (ha : Proper k a) (hb : Proper k b) :
    (k = .can ∨ k = .lin ∨ k = .ethernet ∨ k = .traceSink ∨ k = .traceSource → (same k a b = true ↔ a = b)) ∧
    (k = .flexray → a.txBuffers = b.txBuffers → (same k a b = true ↔ a = b)) := by
  obtain ⟨n1, t1, l1, h1, s1, r1, p1, x1⟩ := a
  obtain ⟨n2, t2, l2, h2, s2, r2, p2, x2⟩ := b
  constructor
  · rintro (rfl | rfl | rfl | rfl | rfl) <;> simp only [Proper] at ha hb <;> simp [same, ha, hb, and_assoc, Elem.mk.injEq]
  · rintro rfl hx
    simp only [Proper] at ha hb hx
    simp only [same, ha, hb, hx, Bool.and_eq_true, decide_eq_true_eq, Elem.mk.injEq, and_assoc, and_true, true_and]
    constructor
    · rintro ⟨e1, e2, e3, e4, e5⟩; exact ⟨e1, e2, e4, e5, e3⟩
    · rintro ⟨e1, e2, e4, e5, e3⟩; exact ⟨e1, e2, e3, e4, e5⟩

theorem sublist_all {α β : Type} {f : α → β} {l l' : List α} (h : l.Sublist l') (hn : (l'.map f).Nodup) (hall : ∀ x ∈ l', ∃ y ∈ l, f y = f x) : l = l' := by
  induction h with
  | slnil => rfl
  | cons a hs ih =>
    rw [List.map_cons, List.nodup_cons] at hn
    obtain ⟨y, h1, h2⟩ := hall a (by simp)
    exact absurd (List.mem_map.2 ⟨y, hs.subset h1, h2⟩) hn.1
  | @cons_cons l1 l2 a hs ih =>
    rw [List.map_cons, List.nodup_cons] at hn
    rw [ih hn.2 (fun x hx => ?_)]
    obtain ⟨y, h1, h2⟩ := hall x (by simp [hx])
    rcases List.mem_cons.1 h1 with rfl | h3
    · exact absurd (List.mem_map.2 ⟨x, hx, h2.symm⟩) hn.1
    · exact ⟨y, h3, h2⟩

/-- **C48.** A configuration without includes whose lists have no two elements of the same name is accepted as it is written, apart from
`CollectFromRemote` and `UpdateInterval` and the order of the sinks. -/
theorem C48_single_file_partial {cwd : Path} {fs : FileSystem} {root : File} (hv : root.schemaVersion.getD 1 = 1) (hi : root.includes = [])
    (hn : ∀ k, ((root.elems k).map (·.name)).Nodup) (hs : SinksFit root.sinks) (hm : MetricsSinksFit root.metricsSinks)
    (hb : ¬ ((∃ s ∈ root.metricsSinks, s.type = .remote) ∧ root.collectFromRemote = some true)) :
    ∃ c, fromString cwd fs root = .ok c ∧ (∀ k, c.elems k = root.elems k) ∧ c.participantName = root.participantName ∧
      (∀ o, c.opt o = (root.opt o).getD o.default) ∧ c.dynamicStep = root.dynamicStep ∧ c.acceptorUris = root.acceptorUris ∧
      c.softTimeout = root.softTimeout ∧ c.hardTimeout = root.hardTimeout ∧ c.extensionPaths = root.extensionPaths ∧
      c.sinks.Perm root.sinks ∧ c.metricsSinks.Perm root.metricsSinks := by
  have hp : processIncludes cwd fs [] root = .ok { paths := appendHints [] root.hints } := by
    unfold processIncludes levels
    rw [hi]
    rfl
  have hsame : ∀ k (e : Elem), same k e e = true := fun k e => by cases k <;> simp [same]
  have huniq : ∀ (es : List Elem), (es.map (·.name)).Nodup → ∀ a ∈ es, ∀ b ∈ es, a.name = b.name → a = b := by
    intro es
    induction es with
    | nil => intro _ a ha; cases ha
    | cons e es ih =>
      intro hnd a ha b hb hab
      rw [List.map_cons, List.nodup_cons] at hnd
      rcases List.mem_cons.1 ha with rfl | h1 <;> rcases List.mem_cons.1 hb with rfl | h2
      · rfl
      · exact absurd (List.mem_map.2 ⟨b, h2, hab.symm⟩) hnd.1
      · exact absurd (List.mem_map.2 ⟨a, h1, hab⟩) hnd.1
      · exact ih hnd.2 a h1 b h2 hab
  have hone : ∀ {α : Type} (o : Option α), NoRepetition ([o].filterMap id) := by
    intro α o
    cases o <;> trivial
  have hmerge : Mergeable [root] := by
    refine ⟨?_, ?_, ?_, ?_, ?_, ?_, ?_, ?_, ?_, ?_⟩
    · intro k a ha b hb hab
      simp only [allElems, List.flatMap_cons, List.flatMap_nil, List.append_nil] at ha hb
      rw [huniq _ (hn k) a ha b hb hab]
      exact hsame k b
    · cases h : root.softTimeout <;> simp [h, NoRepetition]
    · cases h : root.hardTimeout <;> simp [h, NoRepetition]
    · cases h : root.participantName <;> simp [h]
    · by_cases h : root.acceptorUris = [] <;> simp [h]
    · intro o a ha b hb
      simp only [values] at ha hb
      cases h : root.opt o with
      | none => simp [h] at ha
      | some v =>
        simp only [List.filterMap_cons, h, List.filterMap_nil, List.mem_filter, List.mem_singleton] at ha hb
        rw [ha.1, hb.1]
    · intro a ha b hb
      cases h : root.dynamicStep with
      | none => simp [h] at ha
      | some v =>
        simp only [List.filterMap_cons, h, List.filterMap_nil, List.mem_singleton] at ha hb
        rw [ha, hb]
    · simpa [allSinks] using hs
    · simpa [allMetricsSinks] using hm
    · intro ⟨h1, h2⟩
      apply hb
      constructor
      · simpa [allMetricsSinks] using h1
      · simpa [eq_comm] using h2
  obtain ⟨c, h1, h2⟩ := (C48_merge_rules_partial hv hp).1 hmerge
  simp only [List.map_nil] at h2
  refine ⟨c, h1, fun k => ?_, ?_, fun o => ?_, ?_, ?_, ?_, ?_, ?_, ?_, ?_⟩
  · obtain ⟨e1, e2, e3⟩ := h2.elems k
    simp only [allElems, List.flatMap_cons, List.flatMap_nil, List.append_nil] at e2 e3
    refine sublist_all (f := (·.name)) e2 (hn k) (fun x hx => ?_)
    obtain ⟨d, h3, h4, _⟩ := e3 x hx
    exact ⟨d, h3, h4⟩
  · rw [h2.name]; cases h : root.participantName <;> simp [h]
  · rw [h2.options o]
    simp only [values]
    cases h : root.opt o with
    | none => simp [h]
    | some v =>
      by_cases hd : v = o.default <;> simp [h, hd]
  · rw [h2.dynamicStep]; cases h : root.dynamicStep <;> simp [h]
  · rw [h2.acceptors]; simp
  · rw [h2.soft]; cases h : root.softTimeout <;> simp [h]
  · rw [h2.hard]; cases h : root.hardTimeout <;> simp [h]
  · rw [h2.extensions]; simp
  · simpa [allSinks] using h2.sinks
  · simpa [allMetricsSinks] using h2.metrics

/-- A root with an included file; both have a CAN controller of the same name and properties, and different sinks and options. -/
def rootFile : File :=
  { participantName := some 1, elems := fun k => if k = .can then [{ name := 5, target := some 6 }] else [], opt := fun o => if o = .connectAttempts then some 3 else none,
    sinks := [{ type := .stdout }], includes := [[1]] }

def includedFile : File :=
  { elems := fun k => if k = .can then [{ name := 5, target := some 6 }, { name := 7 }] else [], opt := fun o => if o = .tcpQuickAck then some 1 else none,
    sinks := [{ type := .file, logName := 4 }], softTimeout := some 500 }

def oneFile (f : File) : FileSystem := fun p => if p = [119, 47, 1] then some f else none

/-- The hypotheses are met, and both files contribute. -/
example : ∃ c, fromString [119] (oneFile includedFile) rootFile = .ok c ∧ c.elems .can = [{ name := 5, target := some 6 }, { name := 7 }] ∧
    c.opt .connectAttempts = 3 ∧ c.opt .tcpQuickAck = 1 ∧ c.opt .connectTimeout = 5 ∧ c.sinks = [{ type := .file, logName := 4 }, { type := .stdout }] ∧
    c.softTimeout = some 500 ∧ c.participantName = some 1 :=
  ⟨_, rfl, by decide +kernel, by decide +kernel, by decide +kernel, by decide +kernel, by decide +kernel, by decide +kernel, by decide +kernel⟩

/-- A controller of the same name but of another network is refused. -/
example : ∃ m, fromString [119] (oneFile { elems := fun k => if k = .can then [{ name := 5, target := some 8 }] else [] }) rootFile = .throw m := ⟨_, rfl⟩

example : ∃ a b : Elem, Proper .can a ∧ Proper .can b ∧ same .can a b = false ∧ a.name = b.name :=
  ⟨{ name := 1, target := some 1 }, { name := 1, target := some 2 }, by simp [Proper], by simp [Proper], by decide, rfl⟩

/-! ### Deviations -/

/-- Deviation from C48: publishers, subscribers, RPC servers and RPC clients of the same name are taken for the same whatever their topics, functions, labels
and histories are: no error is reported and only the first one is in the configuration. -/
theorem C48_different_services_are_dropped {k : Kind} (hk : k = .publisher ∨ k = .subscriber ∨ k = .rpcServer ∨ k = .rpcClient) (a b : Elem)
    (hn : a.name = b.name) (hs : a.traceSinks = b.traceSinks) (hr : a.replay = b.replay) :
    ∃ c, fromString [119] (oneFile { elems := fun i => if i = k then [b] else [] }) { elems := fun i => if i = k then [a] else [], includes := [[1]] } = .ok c ∧
      c.elems k = [a] := by
  have hp : processIncludes [119] (oneFile { elems := fun i => if i = k then [b] else [] }) [] { elems := fun i => if i = k then [a] else [], includes := [[1]] } =
      .ok { included := [[1]], read := [([1], { elems := fun i => if i = k then [b] else [] })] } := rfl
  have hall : ∀ i, mergeElems i ([({ elems := fun i => if i = k then [a] else [], includes := [[1]] } : File), { elems := fun i => if i = k then [b] else [] }].map deserialize) =
      .ok (if i = k then [a] else []) := by
    intro i
    by_cases hi : i = k
    · subst hi
      have : same i a b = true := by
        rcases hk with rfl | rfl | rfl | rfl <;> simp [same, hs, hr]
      simp [mergeElems, deserialize, loop, mergeElem, Res.bind, hn, this]
    · simp [mergeElems, deserialize, loop, hi]
  have hm : merge ([({ elems := fun i => if i = k then [a] else [], includes := [[1]] } : File), { elems := fun i => if i = k then [b] else [] }].map deserialize) =
      .ok { elems := fun i => if i = k then [a] else [], opt := fun o => o.default } := by
    unfold merge mergeAllElems
    simp only [hall]
    have ho : ∀ o, mergeOption o ([({ elems := fun i => if i = k then [a] else [], includes := [[1]] } : File), { elems := fun i => if i = k then [b] else [] }].map deserialize) =
        .ok o.default := by
      intro o
      simp [mergeOption, deserialize, loop, cacheNonDefault, Res.bind]
    unfold mergeOptions
    simp only [ho]
    rfl
  refine ⟨{ elems := fun i => if i = k then [a] else [], opt := fun o => o.default }, ?_, by simp⟩
  unfold fromString
  rw [(C47_configuration_of_files (root := { elems := fun i => if i = k then [a] else [], includes := [[1]] }) rfl).1 _ hp]
  exact hm

/-- The hypotheses are met by publishers of different topics. -/
example : ∃ a b : Elem, Proper .publisher a ∧ Proper .publisher b ∧ a.name = b.name ∧ a.traceSinks = b.traceSinks ∧ a.replay = b.replay ∧ a ≠ b :=
  ⟨{ name := 1, target := some 1 }, { name := 1, target := some 2, history := some 1 }, by simp [Proper], by simp [Proper], rfl, rfl, rfl, by decide⟩

/-- Deviation from C48: transmit buffers of FlexRay controllers are not compared. -/
theorem C48_transmit_buffers_are_dropped :
    ∃ a b : Elem, Proper .flexray a ∧ Proper .flexray b ∧ a ≠ b ∧ same .flexray a b = true :=
  ⟨{ name := 1, txBuffers := 1 }, { name := 1, txBuffers := 2 }, by simp [Proper], by simp [Proper], by decide, by decide⟩

/-- Deviation from C48: timeouts of the health check can be defined more than once with different values, the last one is used; they are refused exactly if
the same value is repeated. -/
theorem C48_timeouts_are_redefined (v w : Nat) :
    (v ≠ w → ∃ c, fromString [119] (oneFile { softTimeout := some w }) { softTimeout := some v, includes := [[1]] } = .ok c ∧ c.softTimeout = some w) ∧
    (v = w → ∃ m, fromString [119] (oneFile { softTimeout := some w }) { softTimeout := some v, includes := [[1]] } = .throw m) := by
  have hp : processIncludes [119] (oneFile { softTimeout := some w }) [] { softTimeout := some v, includes := [[1]] } =
      .ok { included := [[1]], read := [([1], { softTimeout := some w })] } := rfl
  have hr := C48_merge_rules_partial (root := { softTimeout := some v, includes := [[1]] }) rfl hp
  simp only [List.map_cons, List.map_nil] at hr
  constructor
  · intro hne
    obtain ⟨c, h1, h2⟩ := hr.1 (by
      refine ⟨?_, ?_, ?_, ?_, ?_, ?_, ?_, ?_, ?_, ?_⟩
      · intro k a ha; simp [allElems] at ha
      · simp [NoRepetition, hne]
      · simp [NoRepetition]
      · simp
      · simp
      · intro o a ha; simp [values] at ha
      · intro a ha; simp at ha
      · constructor <;> simp [allSinks]
      · constructor <;> simp [allMetricsSinks]
      · simp)
    refine ⟨c, h1, ?_⟩
    rw [h2.soft]
    simp
  · intro he
    refine hr.2 (fun hm => ?_)
    have := hm.soft
    simp [NoRepetition, he] at this

/-- Deviation from C48: a value that is written in the root is replaced by that of an included file, without an error, if it is the default value. -/
theorem C48_written_defaults_are_overridden (o : Opt) (v : Int) (hv : v ≠ o.default) :
    ∃ c, fromString [119] (oneFile { opt := fun i => if i = o then some v else none })
        { opt := fun i => if i = o then some o.default else none, includes := [[1]] } = .ok c ∧ c.opt o = v := by
  have hp : processIncludes [119] (oneFile { opt := fun i => if i = o then some v else none }) []
        { opt := fun i => if i = o then some o.default else none, includes := [[1]] } =
      .ok { included := [[1]], read := [([1], { opt := fun i => if i = o then some v else none })] } := rfl
  have hr := C48_merge_rules_partial (root := { opt := fun i => if i = o then some o.default else none, includes := [[1]] }) rfl hp
  simp only [List.map_cons, List.map_nil] at hr
  have hval : ∀ i, values i [({ opt := fun i => if i = o then some o.default else none, includes := [[1]] } : File), { opt := fun i => if i = o then some v else none }] =
      if i = o then [v] else [] := by
    intro i
    by_cases h : i = o
    · subst h; simp [values, hv]
    · simp [values, h]
  obtain ⟨c, h1, h2⟩ := hr.1 (by
      refine ⟨?_, ?_, ?_, ?_, ?_, ?_, ?_, ?_, ?_, ?_⟩
      · intro k a ha; simp [allElems] at ha
      · simp [NoRepetition]
      · simp [NoRepetition]
      · simp
      · simp
      · intro i a ha b hb
        rw [hval] at ha hb
        by_cases h : i = o
        · rw [if_pos h, List.mem_singleton] at ha hb; rw [ha, hb]
        · rw [if_neg h] at ha; cases ha
      · intro a ha; simp at ha
      · constructor <;> simp [allSinks]
      · constructor <;> simp [allMetricsSinks]
      · simp)
  refine ⟨c, h1, ?_⟩
  rw [h2.options, hval]
  simp

example : (2 : Int) ≠ Opt.default .connectAttempts := by decide

/-- Deviation from C48: whatever is written, `CollectFromRemote` is not in the configuration and `UpdateInterval` has its default value. -/
theorem C48_metrics_options_are_lost {cwd : Path} {fs : FileSystem} {paths : List Path} {root : File} {c : Config} (h : withIncludes cwd fs paths root = .ok c) :
    c.collectFromRemote = none ∧ c.updateInterval = 1 := by
  obtain ⟨_, _, _, _, h1⟩ := merged_iff h
  exact h1

example : ∃ c, fromString [119] (oneFile {}) { collectFromRemote := some true, updateInterval := some 10 } = .ok c := ⟨_, rfl⟩

/-- Deviation from C48: a value of the middleware section that is defined twice is accepted if it is the same value. -/
theorem C48_middleware_is_defined_twice :
    ∃ c, fromString [119] (oneFile { opt := fun o => if o = .registryUri then some 8501 else none })
      { opt := fun o => if o = .registryUri then some 8501 else none, includes := [[1]] } = .ok c ∧ c.opt .registryUri = 8501 := ⟨_, rfl, by decide +kernel⟩

/-- Deviation from C48: the schema version of included files is not checked, although that of the root is. -/
theorem C48_versions_of_includes_are_not_checked (v : Nat) (hv : v ≠ 1) :
    (∃ c, fromString [119] (oneFile { schemaVersion := some v }) { includes := [[1]] } = .ok c) ∧
    ∃ m, fromString [119] (oneFile {}) { schemaVersion := some v } = .throw m := by
  refine ⟨⟨_, rfl⟩, "Unknown schema version found in participant configuration!", ?_⟩
  unfold fromString withIncludes
  rw [if_pos (by simpa using hv)]

end SilKit.Props
