import Verif.Lemmas.Pcap
/-!
# PCAP traces (C44)

`(s.openFile.traceAll fs).file` is the file after `fs` were traced. A replay reads the first message when the file is opened, and seeks the next ones.
-/
namespace SilKit.Props
open SilKit.Pcap SilKit.Pcap.Spec

/-- Whatever was traced before the file was cut off at any place (by a crash, say), is read back: exactly the frames that are completely in the file, in the
order in which they were traced, with the same bytes and with their times rounded down to microseconds. After the last one, seeking fails. A file that
was cut off in the global header is refused. -/
theorem pcap_roundtrip (s : Sink) (fs : List Frame) (h : ∀ f ∈ fs, Recordable f) (cut : Nat) :
    (cut < 24 → openReader ((s.openFile.traceAll fs).file.take cut) = .throw "global header short read") ∧
    (24 ≤ cut → ∃ r, openReader ((s.openFile.traceAll fs).file.take cut) = .ok r ∧
      ∀ k, ((r.seek k).2 = true ↔ k = 0 ∨ k < (kept (cut - 24) fs).length) ∧
        ((r.seek k).2 = true → (r.seek k).1.current = (kept (cut - 24) fs)[k]?.map recorded)) := by
  have hfile : (s.openFile.traceAll fs).file = globalHeader ++ packets fs := traceAll_file (s := s.openFile) rfl fs
  rw [hfile]
  constructor
  · intro hc
    unfold openReader Reader.globalHeader
    rw [read_none (by rw [rem_length]; simp [globalHeader_length]; omega)]
    rfl
  · intro hc
    have hb : (globalHeader ++ packets fs).take cut = globalHeader ++ (packets fs).take (cut - 24) := by
      rw [List.take_append, globalHeader_length, List.take_of_length_le (by rw [globalHeader_length]; omega)]
    have ho : openReader ((globalHeader ++ packets fs).take cut) =
        .ok (Reader.seek { bytes := (globalHeader ++ packets fs).take cut, pos := 24 } 1).1 := by
      unfold openReader
      rw [header_ok (r := { bytes := (globalHeader ++ packets fs).take cut }) rfl rfl hb]
      rfl
    refine ⟨_, ho, fun k => ?_⟩
    have hg : ({ bytes := (globalHeader ++ packets fs).take cut, pos := 24 } : Reader).good = true := rfl
    have hlen : ((globalHeader ++ packets fs).take cut).length = 24 + ((packets fs).take (cut - 24)).length := by
      rw [hb, List.length_append, globalHeader_length]
    have hp : ({ bytes := (globalHeader ++ packets fs).take cut, pos := 24 } : Reader).pos ≤
        ({ bytes := (globalHeader ++ packets fs).take cut, pos := 24 } : Reader).bytes.length := by
      show 24 ≤ ((globalHeader ++ packets fs).take cut).length
      omega
    have hr : ({ bytes := (globalHeader ++ packets fs).take cut, pos := 24 } : Reader).rem = (packets fs).take (cut - 24) := by
      show ((globalHeader ++ packets fs).take cut).drop 24 = _
      rw [hb, List.drop_append, globalHeader_length, List.drop_of_length_le (by rw [globalHeader_length]; omega)]
      simp
    have hs := seek_spec fs h (cut - 24) _ hg hp hr
    have hdead := fun hx => next_dead (r := { bytes := (globalHeader ++ packets fs).take cut, pos := 24 }) hx
    have hcur := fun hx => next_false (r := { bytes := (globalHeader ++ packets fs).take cut, pos := 24 }) hx
    have hnone : ({ bytes := (globalHeader ++ packets fs).take cut, pos := 24 } : Reader).current = none := rfl
    generalize hq : ({ bytes := (globalHeader ++ packets fs).take cut, pos := 24 } : Reader) = r0 at *
    generalize hn : r0.next = nx at *
    obtain ⟨r1, b⟩ := nx
    have h1 : (r0.seek 1).1 = r1 ∧ (r0.seek 1).2 = b := by
      unfold Reader.seek
      rw [hn]
      cases b <;> exact ⟨rfl, rfl⟩
    rw [h1.1]
    cases b with
    | false =>
      have hz : ¬ (0 < (kept (cut - 24) fs).length) := fun hx => by
        have := (hs 0).1.2 hx
        rw [h1.2] at this
        cases this
      have hk : kept (cut - 24) fs = [] := List.eq_nil_of_length_eq_zero (by omega)
      rw [hk]
      cases k with
      | zero => exact ⟨by simp [Reader.seek], fun _ => by simpa [Reader.seek] using (hcur rfl).1.trans hnone⟩
      | succ k =>
        have : (r1.seek (k + 1)).2 = false := by
          have hd := hdead rfl
          unfold Reader.seek
          cases hn1 : r1.next with
          | mk r2 b2 => simp only at hd; rw [hn1] at hd; cases hd; rfl
        rw [this]
        simp
    | true =>
      have hstep : ∀ n, r0.seek (n + 1) = r1.seek n := fun n => by
        conv => lhs; unfold Reader.seek
        rw [hn]
      have hpos : 0 < (kept (cut - 24) fs).length := (hs 0).1.1 h1.2
      have := hs k
      rw [hstep] at this
      exact ⟨this.1.trans ⟨.inr, fun hx => hx.elim (fun he => he ▸ hpos) id⟩, this.2⟩

/-- Three frames are traced; the file is cut off in the middle of the third one. -/
example : ∃ fs : List Frame, fs.length = 3 ∧ (∀ f ∈ fs, Recordable f) ∧ kept (75 - 24) fs = fs.take 2 ∧ fs.take 2 ≠ [] := by
  refine ⟨[⟨1500, [1, 2]⟩, ⟨2000000000, [3]⟩, ⟨2000000000, [4, 5, 6]⟩], rfl, ?_, by decide, by decide⟩
  intro f hf
  simp only [List.mem_cons, List.not_mem_nil, or_false] at hf
  rcases hf with rfl | rfl | rfl <;> exact ⟨by decide, by decide, by decide⟩

/-- The whole file. -/
theorem pcap_roundtrip_whole (s : Sink) (fs : List Frame) (h : ∀ f ∈ fs, Recordable f) :
    ∃ r, openReader (s.openFile.traceAll fs).file = .ok r ∧
      ∀ k, ((r.seek k).2 = true ↔ k = 0 ∨ k < fs.length) ∧ ((r.seek k).2 = true → (r.seek k).1.current = fs[k]?.map recorded) := by
  have hfile : (s.openFile.traceAll fs).file = globalHeader ++ packets fs := traceAll_file (s := s.openFile) rfl fs
  obtain ⟨r, h1, h2⟩ := (pcap_roundtrip s fs h (s.openFile.traceAll fs).file.length).2 (by rw [hfile]; simp [globalHeader_length])
  rw [List.take_of_length_le (Nat.le_refl _)] at h1
  have hall : ∀ gs : List Frame, kept (packets gs).length gs = gs := by
    intro gs
    induction gs with
    | nil => rfl
    | cons g gs ih =>
      unfold kept
      rw [packets_cons, List.length_append, packet_length, if_pos (by omega), Nat.add_sub_cancel_left, ih]
  have hk : kept ((s.openFile.traceAll fs).file.length - 24) fs = fs := by
    rw [hfile, List.length_append, globalHeader_length, Nat.add_sub_cancel_left, hall]
  rw [hk] at h2
  exact ⟨r, h1, h2⟩

/-- A reader at the other end of a pipe gets what would be in the file. -/
theorem pcap_pipe_like_file (s : Sink) (h : s.fileOpen = false) (fs : List Frame) (hf : fs ≠ []) (t : Sink) :
    (s.openPipe.traceAll fs).pipe = (t.openFile.traceAll fs).file := by
  rw [traceAll_file (s := t.openFile) rfl]
  cases fs with
  | nil => exact absurd rfl hf
  | cons f fs =>
    obtain ⟨h1, h2, h3⟩ := trace_pipe (s := s.openPipe) ⟨h, rfl⟩ f
    show ((s.openPipe.trace f).1.traceAll fs).pipe = _
    rw [traceAll_pipe h2 h3, h1, packets_cons]
    show (([] ++ globalHeader) ++ packet f) ++ packets fs = globalHeader ++ (packet f ++ packets fs)
    simp

/-- Tracing throws exactly for frames without bytes. (Such a frame can be sent if it is not traced; `SendFrame` of a traced controller throws and does not
send it, EthController.cpp:139-148.) -/
theorem pcap_trace_throws_iff (s : Sink) (f : Frame) : (s.openFile.trace f).2 = true ↔ f.raw = [] := by
  obtain ⟨_, _, h3⟩ := traceFile_file (s := s.openFile) rfl f
  unfold Sink.trace
  cases hx : s.openFile.traceFile f with
  | mk s1 t =>
    rw [hx] at h3
    cases t with
    | true => exact ⟨fun _ => h3.1 rfl, fun _ => rfl⟩
    | false =>
      have hn : f.raw ≠ [] := fun h => by have := h3.2 h; cases this
      refine ⟨fun h => ?_, fun h => absurd h hn⟩
      simp only [Bool.false_eq_true, if_false] at h
      unfold Sink.tracePipe at h
      simp only [hn, if_false] at h
      split at h <;> cases h

/-- The two calls of `Trace` by two threads are not protected against each other: the file can contain frames that nobody sent. -/
theorem pcap_concurrent_traces_mix : ∃ (f g : Frame) (ws : List (List UInt8)) (r : Reader), Recordable f ∧ Recordable g ∧
    Interleaved (writes f) (writes g) ws ∧ openReader (globalHeader ++ ws.flatten) = .ok r ∧
      r.current ≠ some (recorded f) ∧ r.current ≠ some (recorded g) ∧ r.current.isSome = true := by
  refine ⟨⟨1000, [1]⟩, ⟨2000, [2]⟩, [packetHeader ⟨1000, [1]⟩, packetHeader ⟨2000, [2]⟩, [1], [2]], _,
    ⟨by decide, by decide, by decide⟩, ⟨by decide, by decide, by decide⟩,
    .left (.right (.left (.right .nil))), rfl, by decide +kernel, by decide +kernel, by decide +kernel⟩

/-- A file is accepted exactly if it has a global header with this magic number, and the major or the minor version is right. -/
theorem pcap_open_iff (bytes : List UInt8) : (∃ r, openReader bytes = .ok r) ↔
    24 ≤ bytes.length ∧ field (bytes.take 24) 0 4 = 0xa1b23c4d ∧ (field (bytes.take 24) 4 2 = 2 ∨ field (bytes.take 24) 6 2 = 4) := by
  unfold openReader Reader.globalHeader
  by_cases hl : 24 ≤ bytes.length
  · rw [read_some (r := { bytes := bytes }) rfl (by simp) (by rw [rem_length]; simpa using hl)]
    have hrem : ({ bytes := bytes } : Reader).rem = bytes := rfl
    simp only [hrem, bne_iff_ne, ne_eq, Bool.and_eq_true, hl, true_and]
    unfold nativeMagic
    by_cases h1 : field (bytes.take 24) 0 4 = 0xa1b23c4d
    · by_cases h2 : field (bytes.take 24) 4 2 = 2
      · simp [h1, h2, Res.bind]
      · by_cases h3 : field (bytes.take 24) 6 2 = 4
        · simp [h1, h3, Res.bind]
        · simp [h1, h2, h3, Res.bind]
    · simp [h1, Res.bind]
  · rw [read_none (by rw [rem_length]; simp; omega)]
    simp [hl, Res.bind]

/-- Files of a version that is not 2.4 are accepted. -/
theorem C44_wrong_version_is_accepted : ∃ (bytes : List UInt8) (r : Reader), openReader bytes = .ok r ∧
    field (bytes.take 24) 4 2 = 2 ∧ field (bytes.take 24) 6 2 = 9 :=
  ⟨MessageBuffer.leBytes 4 nativeMagic ++ MessageBuffer.leBytes 2 2 ++ MessageBuffer.leBytes 2 9 ++ MessageBuffer.leBytes 16 0, _, rfl,
    by decide +kernel, by decide +kernel⟩

/-- Other programs take the fraction of a second for nanoseconds, because the magic number says so: they show every frame that is not at a full second
(up to microseconds) at a wrong time. -/
theorem C44_other_programs_show_other_times (s : Sink) (fs : List Frame) (f : Frame) (hf : Recordable f) (hn : (recorded f).time % 1000000000 ≠ 0) :
    ∃ t : Nat, standardTime (field (s.openFile.traceAll fs).file 0 4) (field (packetHeader f) 0 4) (field (packetHeader f) 4 4) = some t ∧
      (t : Int) < (recorded f).time := by
  have hfile : (s.openFile.traceAll fs).file = globalHeader ++ packets fs := traceAll_file (s := s.openFile) rfl fs
  have hm : field (s.openFile.traceAll fs).file 0 4 = 0xa1b23c4d := by
    rw [hfile]
    unfold globalHeader
    simp only [List.append_assoc]
    exact field_here 4 _ _ (by decide)
  have ht := (header_fields hf).1
  unfold timeOf at ht
  rw [hm]
  refine ⟨field (packetHeader f) 0 4 * 1000000000 + field (packetHeader f) 4 4, rfl, ?_⟩
  rw [← ht] at hn ⊢
  omega

example : ∃ f, Recordable f ∧ (recorded f).time % 1000000000 ≠ 0 := ⟨⟨1500, [1]⟩, ⟨by decide, by decide, by decide⟩, by decide⟩

/-- Files with the magic number of a PCAP file with microseconds, as other programs write them, are refused. -/
theorem C44_microsecond_files_are_refused (bytes : List UInt8) (h : field (bytes.take 24) 0 4 = 0xa1b2c3d4) : ¬ ∃ r, openReader bytes = .ok r := by
  rw [pcap_open_iff]
  rintro ⟨_, h1, _⟩
  rw [h] at h1
  cases h1

/-- After `Close`, a recording is not changed any more, whatever is traced, and tracing does not throw. -/
theorem C44_closed_recording_is_not_changed (s : Sink) (fs : List Frame) : (s.close.traceAll fs).file = s.file ∧ (s.close.traceAll fs).pipe = s.pipe ∧ ∀ f, (s.close.trace f).2 = false := by
  have h : ∀ f, s.close.trace f = (s.close, false) := fun f => rfl
  have h2 : s.close.traceAll fs = s.close := by
    induction fs with
    | nil => rfl
    | cons f fs ih => unfold Sink.traceAll at ih ⊢; rw [List.foldl_cons, h f]; exact ih
  rw [h2]
  exact ⟨rfl, rfl, fun f => by rw [h f]⟩

example : ((({} : Sink).openFile.traceAll [⟨5, [1]⟩]).close.traceAll [⟨6, [2]⟩, ⟨7, []⟩]).file = globalHeader ++ packetHeader ⟨5, [1]⟩ ++ [1] := by decide +kernel

end SilKit.Props
