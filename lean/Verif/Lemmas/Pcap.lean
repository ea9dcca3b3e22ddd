import Verif.Spec.Pcap
import Verif.Lemmas.Serdes
namespace SilKit.Pcap
open SilKit.Pcap.Spec
open MessageBuffer

theorem packetHeader_length (f : Frame) : (packetHeader f).length = 16 := by
  simp [packetHeader]

theorem globalHeader_length : globalHeader.length = 24 := by
  simp [globalHeader]

/-- A packet. -/
def packet (f : Frame) : List UInt8 := packetHeader f ++ f.raw

def packets (fs : List Frame) : List UInt8 := fs.flatMap packet

theorem packet_length (f : Frame) : (packet f).length = size f := by
  simp [packet, packetHeader_length, size]

theorem packets_cons (f : Frame) (fs : List Frame) : packets (f :: fs) = packet f ++ packets fs := rfl

theorem traceFile_file {s : Sink} (h : s.fileOpen = true) (f : Frame) :
    (s.traceFile f).1.file = s.file ++ packet f ∧ (s.traceFile f).1.fileOpen = true ∧ ((s.traceFile f).2 = true ↔ f.raw = []) := by
  unfold Sink.traceFile packet
  rw [h]
  by_cases he : f.raw = []
  · simp [he, h]
  · simp [he, h]

theorem tracePipe_file (s : Sink) (f : Frame) : (s.tracePipe f).1.file = s.file ∧ (s.tracePipe f).1.fileOpen = s.fileOpen := by
  unfold Sink.tracePipe
  simp only
  by_cases ho : s.pipeOpen = true
  · by_cases he : f.raw = []
    · simp [ho, he]
    · simp [ho, he]
  · simp [ho]

theorem trace_file {s : Sink} (h : s.fileOpen = true) (f : Frame) :
    (s.trace f).1.file = s.file ++ packet f ∧ (s.trace f).1.fileOpen = true := by
  obtain ⟨h1, h2, _⟩ := traceFile_file h f
  unfold Sink.trace
  cases hx : s.traceFile f with
  | mk s1 t =>
    rw [hx] at h1 h2
    cases t
    · obtain ⟨g1, g2⟩ := tracePipe_file s1 f
      exact ⟨g1.trans h1, g2.trans h2⟩
    · exact ⟨h1, h2⟩

theorem traceAll_file {s : Sink} (h : s.fileOpen = true) (fs : List Frame) : (s.traceAll fs).file = s.file ++ packets fs := by
  induction fs generalizing s with
  | nil => simp [Sink.traceAll, packets]
  | cons f fs ih =>
    obtain ⟨h1, h2⟩ := trace_file h f
    have := ih h2
    show ((s.trace f).1.traceAll fs).file = _
    rw [this, h1, packets_cons, List.append_assoc]

/-- Only the pipe is open. -/
structure PipeOnly (s : Sink) : Prop where
  file : s.fileOpen = false
  pipe : s.pipeOpen = true

theorem trace_pipe {s : Sink} (h : PipeOnly s) (f : Frame) :
    (s.trace f).1.pipe = (if s.headerWritten then s.pipe else s.pipe ++ globalHeader) ++ packet f ∧ PipeOnly (s.trace f).1 ∧
      (s.trace f).1.headerWritten = true := by
  obtain ⟨h1, h2⟩ := h
  unfold Sink.trace Sink.traceFile
  simp only [h1, Bool.not_false, if_true]
  unfold Sink.tracePipe packet
  simp only [h2, Bool.not_true, Bool.false_eq_true, if_false]
  by_cases he : f.raw = []
  · simp only [he, if_true, List.append_nil]
    exact ⟨trivial, ⟨h1, rfl⟩, trivial⟩
  · simp only [he, if_false, List.append_assoc]
    exact ⟨trivial, ⟨h1, rfl⟩, trivial⟩

theorem traceAll_pipe {s : Sink} (h : PipeOnly s) (hw : s.headerWritten = true) (fs : List Frame) :
    (s.traceAll fs).pipe = s.pipe ++ packets fs := by
  induction fs generalizing s with
  | nil => simp [Sink.traceAll, packets]
  | cons f fs ih =>
    obtain ⟨h1, h2, h3⟩ := trace_pipe h f
    show ((s.trace f).1.traceAll fs).pipe = _
    rw [ih h2 h3, h1, hw, packets_cons]
    simp

/-! ## Fields of headers -/

theorem field_skip (a b : List UInt8) (i n : Nat) (h : i = a.length) : field (a ++ b) i n = field b 0 n := by
  subst h
  simp [field]

theorem field_here (n v : Nat) (b : List UInt8) (h : v < 256 ^ n) : field (leBytes n v ++ b) 0 n = v := by
  unfold field
  rw [List.drop_zero, List.take_append_of_le_length (by simp), List.take_of_length_le (by simp), leVal_leBytes, Nat.mod_eq_of_lt h]

theorem microseconds_of {t : Int} (h0 : 0 ≤ t) (h1 : t < 2 ^ 32 * 1000000000) : (microseconds t : Int) = t / 1000 := by
  unfold microseconds
  rw [Int.tdiv_eq_ediv_of_nonneg h0]
  have : (t / 1000) % 2 ^ 64 = t / 1000 := Int.emod_eq_of_lt (by omega) (by omega)
  rw [this]
  omega

theorem header_fields {f : Frame} (h : Recordable f) :
    timeOf (packetHeader f) = (recorded f).time ∧ field (packetHeader f) 8 4 = f.raw.length := by
  obtain ⟨h0, h1, h2⟩ := h
  have hm := microseconds_of h0 h1
  have hs : microseconds f.time / 1000000 < 256 ^ 4 := by omega
  have hu : microseconds f.time % 1000000 < 256 ^ 4 := by omega
  have hl : f.raw.length < 256 ^ 4 := by omega
  have e1 : field (packetHeader f) 0 4 = microseconds f.time / 1000000 := by
    unfold packetHeader
    rw [List.append_assoc, List.append_assoc]
    exact field_here _ _ _ hs
  have e2 : field (packetHeader f) 4 4 = microseconds f.time % 1000000 := by
    unfold packetHeader
    rw [List.append_assoc, List.append_assoc, field_skip _ _ _ _ (by simp)]
    exact field_here _ _ _ hu
  have e3 : field (packetHeader f) 8 4 = f.raw.length := by
    unfold packetHeader
    rw [List.append_assoc, field_skip _ _ _ _ (by simp)]
    exact field_here _ _ _ hl
  refine ⟨?_, e3⟩
  unfold timeOf
  rw [e1, e2]
  show _ = f.time / 1000 * 1000
  omega

/-! ## Reading -/

/-- What the reader has not read yet. -/
def Reader.rem (r : Reader) : List UInt8 := r.bytes.drop r.pos

theorem rem_length (r : Reader) : r.rem.length = r.bytes.length - r.pos := by simp [Reader.rem]

theorem read_some {r : Reader} {n : Nat} (hg : r.good = true) (hp : r.pos ≤ r.bytes.length) (h : n ≤ r.rem.length) :
    r.read n = ({ r with pos := r.pos + n }, some (r.rem.take n)) := by
  rw [rem_length] at h
  unfold Reader.read
  rw [hg, if_pos (by simp; omega)]
  rfl

theorem read_none {r : Reader} {n : Nat} (h : r.rem.length < n) : r.read n = ({ r with good := false }, none) := by
  rw [rem_length] at h
  unfold Reader.read
  rw [if_neg (by simp; omega)]

theorem next_some {r : Reader} {f : Frame} {rest : List UInt8} (hg : r.good = true) (hp : r.pos ≤ r.bytes.length) (hf : Recordable f)
    (h : r.rem = packet f ++ rest) :
    ∃ r', r.next = (r', true) ∧ r'.good = true ∧ r'.pos ≤ r'.bytes.length ∧ r'.rem = rest ∧ r'.current = some (recorded f) := by
  have hl : r.rem.length = 16 + f.raw.length + rest.length := by rw [h, List.length_append, packet_length]; rfl
  have hb : r.rem.length = r.bytes.length - r.pos := rem_length r
  obtain ⟨e1, e2⟩ := header_fields hf
  have hhdr : r.rem.take 16 = packetHeader f := by
    rw [h, packet, List.append_assoc, List.take_append_of_le_length (by rw [packetHeader_length]; omega), List.take_of_length_le (by rw [packetHeader_length]; omega)]
  have hrem1 : ({ r with pos := r.pos + 16 } : Reader).rem = f.raw ++ rest := by
    show r.bytes.drop (r.pos + 16) = _
    rw [← List.drop_drop]
    show r.rem.drop 16 = _
    rw [h, packet, List.append_assoc, List.drop_append, packetHeader_length]
    simp [List.drop_of_length_le, packetHeader_length]
  have h2 := read_some (r := { r with pos := r.pos + 16 }) (n := f.raw.length) hg (by show r.pos + 16 ≤ r.bytes.length; omega)
    (by rw [hrem1]; simp)
  unfold Reader.next
  rw [read_some hg hp (by omega), hhdr]
  simp only [e2]
  rw [h2, hrem1]
  simp only [List.take_left']
  refine ⟨_, rfl, hg, ?_, ?_, ?_⟩
  · show r.pos + 16 + f.raw.length ≤ r.bytes.length
    omega
  · show r.bytes.drop (r.pos + 16 + f.raw.length) = rest
    rw [← List.drop_drop]
    have : r.bytes.drop (r.pos + 16) = f.raw ++ rest := hrem1
    rw [this, List.drop_left]
  · show some _ = some _
    rw [e1]
    rfl

theorem next_none_of {r : Reader} {f : Frame} {c : Nat} (hg : r.good = true) (hp : r.pos ≤ r.bytes.length) (hf : Recordable f) (rest : List UInt8)
    (h : r.rem = (packet f ++ rest).take c) (hc : c < size f) : (r.next).2 = false := by
  have hl : r.rem.length = c := by
    rw [h, List.length_take, List.length_append, packet_length]; omega
  have hb : r.rem.length = r.bytes.length - r.pos := rem_length r
  unfold Reader.next
  by_cases h16 : c < 16
  · rw [read_none (by omega)]
  · have hrem : r.rem = packetHeader f ++ f.raw.take (c - 16) := by
      rw [h, List.take_append_of_le_length (by rw [packet_length]; omega), packet, List.take_append, packetHeader_length,
        List.take_of_length_le (by rw [packetHeader_length]; omega)]
    have hhdr : r.rem.take 16 = packetHeader f := by
      rw [hrem, List.take_append_of_le_length (by rw [packetHeader_length]; omega), List.take_of_length_le (by rw [packetHeader_length]; omega)]
    rw [read_some hg hp (by omega), hhdr]
    simp only [(header_fields hf).2]
    rw [read_none]
    show (r.bytes.drop (r.pos + 16)).length < _
    rw [List.length_drop]
    unfold size at hc
    omega

theorem kept_le (c : Nat) (fs : List Frame) : (kept c fs).length ≤ fs.length := by
  induction fs generalizing c with
  | nil => simp [kept]
  | cons f fs ih =>
    unfold kept
    split
    · simp only [List.length_cons]; exact Nat.succ_le_succ (ih _)
    · simp

/-- Reading on from a place where the packets begin. -/
theorem seek_spec (fs : List Frame) (hf : ∀ f ∈ fs, Recordable f) (c : Nat) (r : Reader) (hg : r.good = true) (hp : r.pos ≤ r.bytes.length)
    (h : r.rem = (packets fs).take c) (k : Nat) :
    ((r.seek (k + 1)).2 = true ↔ k < (kept c fs).length) ∧
      ((r.seek (k + 1)).2 = true → (r.seek (k + 1)).1.current = (kept c fs)[k]?.map recorded) := by
  induction fs generalizing c r k with
  | nil =>
    have : r.next.2 = false := by
      unfold Reader.next
      rw [read_none (by rw [h]; simp [packets])]
    have hs : (r.seek (k + 1)).2 = false := by
      unfold Reader.seek
      cases hn : r.next with
      | mk r1 b => rw [hn] at this; cases this; rfl
    simp [hs, kept]
  | cons f fs ih =>
    have hf0 := hf f (by simp)
    have hf1 : ∀ g ∈ fs, Recordable g := fun g hg => hf g (by simp [hg])
    rw [packets_cons] at h
    by_cases hc : size f ≤ c
    · have hrem : r.rem = packet f ++ (packets fs).take (c - size f) := by
        rw [h, List.take_append, packet_length, List.take_of_length_le (by rw [packet_length]; omega)]
      obtain ⟨r', e, g1, g2, g3, g4⟩ := next_some hg hp hf0 hrem
      have hk : kept c (f :: fs) = f :: kept (c - size f) fs := by simp [kept, hc]
      have hs : ∀ n, r.seek (n + 1) = r'.seek n := by
        intro n
        conv => lhs; unfold Reader.seek
        rw [e]
      rw [hs, hk]
      cases k with
      | zero => exact ⟨by simp [Reader.seek], fun _ => by simpa [Reader.seek] using g4⟩
      | succ k =>
        obtain ⟨i1, i2⟩ := ih hf1 (c - size f) r' g1 g2 g3 k
        refine ⟨i1.trans (by simp), fun hx => ?_⟩
        rw [i2 hx]
        simp
    · have : r.next.2 = false := next_none_of hg hp hf0 _ h (by omega)
      have hs : (r.seek (k + 1)).2 = false := by
        unfold Reader.seek
        cases hn : r.next with
        | mk r1 b => rw [hn] at this; cases this; rfl
      simp [hs, kept, hc]

theorem header_ok {r : Reader} (hg : r.good = true) (hp : r.pos = 0) {rest : List UInt8} (h : r.bytes = globalHeader ++ rest) :
    r.globalHeader = .ok { r with pos := 24 } := by
  have hr : r.rem = globalHeader ++ rest := by rw [Reader.rem, hp, h]; rfl
  unfold Reader.globalHeader
  rw [read_some hg (by omega) (by rw [hr, List.length_append, globalHeader_length]; omega), hr,
    List.take_append_of_le_length (by rw [globalHeader_length]; omega), List.take_of_length_le (by rw [globalHeader_length]; omega), hp]
  simp only
  rw [if_neg (by decide), if_neg (by decide)]

theorem next_false {r : Reader} (h : r.next.2 = false) : r.next.1.current = r.current ∧ r.next.1.good = false := by
  unfold Reader.next at *
  generalize hx : r.read 16 = x at *
  obtain ⟨r1, o⟩ := x
  unfold Reader.read at hx
  split at hx
  · injection hx with e1 e2
    subst e1 e2
    simp only at h ⊢
    generalize hy : Reader.read _ _ = y at *
    obtain ⟨r2, o2⟩ := y
    unfold Reader.read at hy
    split at hy
    · injection hy with e3 e4
      subst e4
      cases h
    · injection hy with e3 e4
      subst e3 e4
      exact ⟨rfl, rfl⟩
  · injection hx with e1 e2
    subst e1 e2
    exact ⟨rfl, rfl⟩

theorem next_dead {r : Reader} (h : r.next.2 = false) : r.next.1.next.2 = false := by
  have hgood := (next_false h).2
  generalize r.next.1 = r1 at hgood
  unfold Reader.next Reader.read
  simp [hgood]

end SilKit.Pcap
