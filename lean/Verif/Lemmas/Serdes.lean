import Verif.Spec.Messages
/-!
# Laws of the elementary streaming operators
-/
namespace SilKit
open Spec

namespace R
theorem bind_def {α β : Type} (r : R α) (k : α → R β) (b : MessageBuffer) :
    (r >>= k) b = match r b with
      | .ok (a, b') => k a b'
      | .throw m => .throw m
      | .ub m => .ub m := rfl
theorem pure_def {α : Type} (a : α) (b : MessageBuffer) : (pure a : R α) b = .ok (a, b) := rfl
end R

namespace MessageBuffer

/-! ## little endian -/

@[simp] theorem leBytes_length (n v : Nat) : (leBytes n v).length = n := by
  induction n generalizing v with
  | zero => rfl
  | succ n ih => simp [leBytes, ih]

theorem leVal_leBytes (n v : Nat) : leVal (leBytes n v) = v % 256 ^ n := by
  induction n generalizing v with
  | zero => simp [leBytes, leVal, Nat.mod_one]
  | succ n ih =>
    simp only [leBytes, leVal, ih]
    have : (UInt8.ofNat (v % 256)).toNat = v % 256 := by
      simp [UInt8.toNat_ofNat']
    rw [this, Nat.pow_succ, Nat.mul_comm (256 ^ n) 256, Nat.mod_mul]

theorem leVal_lt (bs : List UInt8) : leVal bs < 256 ^ bs.length := by
  induction bs with
  | nil => simp [leVal]
  | cons b bs ih =>
    simp only [leVal, List.length_cons, Nat.pow_succ]
    have := b.toNat_lt
    omega

/-! ## generic composition -/

theorem appends_unique {ver : ProtocolVersion} {w : R Unit} {b1 b2 : List UInt8}
    (h1 : Appends ver w b1) (h2 : Appends ver w b2) : b1 = b2 := by
  have h1 := h1 ⟨ver, [], 0, 0⟩ rfl rfl
  have h2 := h2 ⟨ver, [], 0, 0⟩ rfl rfl
  rw [h1] at h2
  simp at h2
  exact h2.1

theorem appends_bind {ver : ProtocolVersion} {w1 : R Unit} {w2 : Unit → R Unit} {b1 b2 : List UInt8}
    (h1 : Appends ver w1 b1) (h2 : Appends ver (w2 ()) b2) : Appends ver (w1 >>= w2) (b1 ++ b2) := by
  intro b hv hw
  rw [R.bind_def, h1 b hv hw]
  show w2 () _ = _
  rw [h2]
  · simp [Nat.add_assoc]
  · exact hv
  · simp [hw]

theorem yields_bind {α β : Type} {ver : ProtocolVersion} {r : R α} {k : α → R β} {b1 b2 : List UInt8} {a : α} {c : β}
    (h1 : Yields ver r b1 a) (h2 : Yields ver (k a) b2 c) : Yields ver (r >>= k) (b1 ++ b2) c := by
  intro b pre post hv hs hr
  rw [R.bind_def, h1 b pre (b2 ++ post) hv (by simp [hs]) hr]
  show k a _ = _
  rw [h2 _ (pre ++ b1) post]
  · simp [Nat.add_assoc]
  · exact hv
  · simp [hs]
  · simp [hr]

theorem yields_pure {α : Type} {ver : ProtocolVersion} (a : α) : Yields ver (pure a) [] a := by
  intro b pre post hv hs hr
  simp [R.pure_def]

theorem rt_bind {α β : Type} {ver : ProtocolVersion} {w1 : R Unit} {w2 : Unit → R Unit} {r : R α} {k : α → R β}
    {a : α} {c : β} (h1 : RoundTrips ver w1 r a) (h2 : RoundTrips ver (w2 ()) (k a) c) :
    RoundTrips ver (w1 >>= w2) (r >>= k) c := by
  obtain ⟨b1, n1, a1, y1⟩ := h1
  obtain ⟨b2, n2, a2, y2⟩ := h2
  exact ⟨b1 ++ b2, by simp [n1], appends_bind a1 a2, yields_bind y1 y2⟩

theorem rt_last {α β : Type} {ver : ProtocolVersion} {w1 : R Unit} {r : R α} {k : α → R β}
    {a : α} {c : β} (h1 : RoundTrips ver w1 r a) (h2 : k a = pure c) :
    RoundTrips ver w1 (r >>= k) c := by
  obtain ⟨b1, n1, a1, y1⟩ := h1
  refine ⟨b1, n1, a1, ?_⟩
  have := yields_bind (k := k) y1 (h2 ▸ yields_pure c)
  simpa using this

/-- A decoder that first asks for the remaining size: while a non-empty encoding follows, it is positive. -/
theorem rt_remaining {α : Type} {ver : ProtocolVersion} {w : R Unit} {k : Nat → R α} {a : α}
    (h : ∀ n, 0 < n → RoundTrips ver w (k n) a) : RoundTrips ver w (remainingBytesLeft >>= k) a := by
  obtain ⟨bs, n1, a1, _⟩ := h 1 (by omega)
  refine ⟨bs, n1, a1, ?_⟩
  intro b pre post hv hs hr
  rw [R.bind_def]
  simp only [remainingBytesLeft]
  have hlen : b.storage.length = pre.length + bs.length + post.length := by simp [hs]; omega
  have hbs : 0 < bs.length := List.length_pos_iff.mpr n1
  rw [if_neg (by omega)]
  obtain ⟨bs', _, a2, y2⟩ := h (b.storage.length - b.rPos) (by omega)
  have := appends_unique a1 a2
  subst this
  exact y2 b pre post hv hs hr

theorem rt_version {α : Type} {ver : ProtocolVersion} {w : R Unit} {k : ProtocolVersion → R α} {a : α}
    (h : RoundTrips ver w (k ver) a) : RoundTrips ver w (getProtocolVersion >>= k) a := by
  obtain ⟨bs, n1, a1, y1⟩ := h
  refine ⟨bs, n1, a1, ?_⟩
  intro b pre post hv hs hr
  rw [R.bind_def]
  show k b.protocolVersion b = _
  have := y1 b pre post hv hs hr
  rw [← hv] at this
  exact this

theorem rt_version_w {α : Type} {ver : ProtocolVersion} {w : ProtocolVersion → R Unit} {r : R α} {a : α}
    (h : RoundTrips ver (w ver) r a) : RoundTrips ver (getProtocolVersion >>= w) r a := by
  obtain ⟨bs, n1, a1, y1⟩ := h
  refine ⟨bs, n1, ?_, y1⟩
  intro b hv hw
  rw [R.bind_def]
  show w b.protocolVersion b = _
  have := a1 b hv hw
  rw [← hv] at this
  exact this

/-! ## copies -/

theorem copyTo_grow (st : List UInt8) (bytes : List UInt8) (k : Nat) (hk : k = bytes.length) :
    copyTo (st ++ List.replicate k 0) st.length bytes = .ok (st ++ bytes) := by
  subst hk
  unfold copyTo
  rw [if_pos (by simp)]
  congr 1
  simp

theorem copyFrom_mid (pre bytes post : List UInt8) (n : Nat) (hn : n = bytes.length) :
    copyFrom (pre ++ bytes ++ post) pre.length n = .ok bytes := by
  subst hn
  unfold copyFrom
  rw [if_pos (by simp)]
  simp

/-! ## integers -/

theorem appends_int {ver : ProtocolVersion} {w : Nat} (v : BitVec w) (h0 : 0 < w / 8) :
    Appends ver (wInt v) (leBytes (w / 8) v.toNat) := by
  intro b hv hw
  unfold wInt
  rw [if_pos (by omega), hw]
  simp only [copyTo_grow b.storage (leBytes (w / 8) v.toNat) (w / 8) (by simp)]
  simp

theorem guardRead_ok {b : MessageBuffer} {n : Nat} (h : b.rPos + n ≤ b.storage.length) :
    guardRead n b = .ok ((), b) := by
  unfold guardRead
  rw [if_neg (by omega)]

theorem yields_take {ver : ProtocolVersion} (bytes : List UInt8) (n : Nat) (hn : n = bytes.length) :
    Yields ver (do guardRead n; takeRead n) bytes bytes := by
  subst hn
  intro b pre post hv hs hr
  have hlen : b.storage.length = pre.length + bytes.length + post.length := by simp [hs]; omega
  rw [R.bind_def, guardRead_ok (by omega)]
  show takeRead _ b = _
  unfold takeRead
  rw [hs, hr, copyFrom_mid _ _ _ _ rfl]

theorem yields_int {ver : ProtocolVersion} {w : Nat} (v : BitVec w) (h8 : 8 * (w / 8) = w) :
    Yields ver (rInt w) (leBytes (w / 8) v.toNat) v := by
  intro b pre post hv hs hr
  have h := yields_take (ver := ver) (leBytes (w / 8) v.toNat) (w / 8) (by simp) b pre post hv hs hr
  unfold rInt
  rw [R.bind_def] at h ⊢
  revert h
  cases guardRead (w / 8) b with
  | throw m => intro h; simp at h
  | ub m => intro h; simp at h
  | ok p =>
    obtain ⟨u, b'⟩ := p
    intro h
    simp only at h ⊢
    rw [R.bind_def, h]
    simp only [R.pure_def]
    rw [leVal_leBytes]
    have : (256 : Nat) ^ (w / 8) = 2 ^ w := by
      rw [show (256 : Nat) = 2 ^ 8 from rfl, ← Nat.pow_mul, h8]
    rw [this, Nat.mod_eq_of_lt v.isLt, BitVec.ofNat_toNat]
    simp

theorem rt_int {ver : ProtocolVersion} {w : Nat} (v : BitVec w) (h8 : 8 * (w / 8) = w) (h0 : 0 < w / 8) :
    RoundTrips ver (wInt v) (rInt w) v := by
  refine ⟨_, ?_, appends_int v h0, yields_int v h8⟩
  intro h
  have := congrArg List.length h
  simp at this
  omega

/-! ## strings and byte vectors -/

theorem appends_raw {ver : ProtocolVersion} (bytes : List UInt8) : Appends ver (wRaw bytes) bytes := by
  intro b hv hw
  unfold wRaw
  by_cases h0 : bytes = []
  · subst h0
    have : ¬ (b.wPos + ([] : List UInt8).length > b.storage.length) := by simp [hw]
    rw [if_neg this]
    simp [copyTo, hw]
  · have : 0 < bytes.length := List.length_pos_iff.mpr h0
    rw [if_pos (by omega), hw, show b.storage.length + bytes.length - b.storage.length = bytes.length by omega]
    simp only [copyTo_grow b.storage bytes _ rfl]

theorem appends_pure_bind {ver : ProtocolVersion} {w : Unit → R Unit} {bs : List UInt8} (h : Appends ver (w ()) bs) :
    Appends ver (pure () >>= w) bs := by
  intro b hv hw
  rw [R.bind_def, R.pure_def]
  exact h b hv hw

theorem toNat_ofNat32 {n : Nat} (h : n < 2 ^ 32) : (BitVec.ofNat 32 n).toNat = n := by
  simp [BitVec.toNat_ofNat, Nat.mod_eq_of_lt h]

theorem appends_bytes {ver : ProtocolVersion} (s : List UInt8) (h : Short s) :
    Appends ver (wBytes s) (leBytes 4 s.length ++ s) := by
  unfold wBytes
  have h' : s.length < 2 ^ 32 := h
  rw [if_neg (by unfold uint32Max; omega)]
  apply appends_bind _ (appends_raw s)
  have := appends_int (ver := ver) (BitVec.ofNat 32 s.length) (by decide)
  rwa [toNat_ofNat32 h'] at this

theorem yields_bytes {ver : ProtocolVersion} (s : List UInt8) (h : Short s) :
    Yields ver rBytes (leBytes 4 s.length ++ s) s := by
  unfold rBytes
  have h' : s.length < 2 ^ 32 := h
  have h1 := yields_int (ver := ver) (BitVec.ofNat 32 s.length) (by decide)
  rw [toNat_ofNat32 h'] at h1
  apply yields_bind h1
  rw [toNat_ofNat32 h']
  exact yields_take s _ rfl

theorem rt_bytes {ver : ProtocolVersion} (s : List UInt8) (h : Short s) : RoundTrips ver (wBytes s) rBytes s :=
  ⟨_, by simp [leBytes], appends_bytes s h, yields_bytes s h⟩

/-! ## arrays -/

theorem rt_array {ver : ProtocolVersion} {n : Nat} (a : Vector UInt8 n) (h0 : 0 < n) :
    RoundTrips ver (wArray a) (rArray n) a := by
  refine ⟨a.toList, ?_, appends_raw _, ?_⟩
  · intro h
    have := congrArg List.length h
    simp at this
    omega
  · intro b pre post hv hs hr
    have hlen : b.storage.length = pre.length + n + post.length := by simp [hs]; omega
    unfold rArray
    rw [R.bind_def, guardRead_ok (by omega)]
    show takeArray n b = _
    unfold takeArray
    rw [hs, hr, copyFrom_mid _ _ _ _ (by simp)]
    simp [Vector.toList]

/-! ## vectors -/

theorem rt_loop {α : Type} {ver : ProtocolVersion} (w : α → R Unit) (r : R α) (vs : List α)
    (h : ∀ v ∈ vs, RoundTrips ver (w v) r v) :
    ∃ bs, vs.length ≤ bs.length ∧ Appends ver (wLoop w vs) bs ∧ Yields ver (rLoop r vs.length) bs vs := by
  induction vs with
  | nil =>
    refine ⟨[], by simp, ?_, yields_pure []⟩
    intro b hv hw
    simp [wLoop, R.pure_def]
  | cons v vs ih =>
    obtain ⟨bs, hl, ha, hy⟩ := ih (fun x hx => h x (List.mem_cons_of_mem _ hx))
    obtain ⟨b1, n1, a1, y1⟩ := h v List.mem_cons_self
    refine ⟨b1 ++ bs, ?_, appends_bind a1 ha, ?_⟩
    · have := List.length_pos_iff.mpr n1
      simp; omega
    · refine yields_bind y1 ?_
      have := yields_bind (k := fun vs => pure (v :: vs)) hy (yields_pure (v :: vs))
      simpa using this

theorem rt_vec {α : Type} {ver : ProtocolVersion} (w : α → R Unit) (r : R α) (vs : List α) (hs : ShortList vs)
    (h : ∀ v ∈ vs, RoundTrips ver (w v) r v) : RoundTrips ver (wVec w vs) (rVec r) vs := by
  have h' : vs.length < 2 ^ 32 := hs
  obtain ⟨bs, hl, ha, hy⟩ := rt_loop w r vs h
  refine ⟨leBytes 4 vs.length ++ bs, by simp [leBytes], ?_, ?_⟩
  · unfold wVec
    rw [if_neg (by unfold uint32Max; omega)]
    apply appends_bind _ ha
    have := appends_int (ver := ver) (BitVec.ofNat 32 vs.length) (by decide)
    rwa [toNat_ofNat32 h'] at this
  · unfold rVec
    have h1 := yields_int (ver := ver) (BitVec.ofNat 32 vs.length) (by decide)
    rw [toNat_ofNat32 h'] at h1
    apply yields_bind h1
    rw [toNat_ofNat32 h']
    intro b pre post hv hs hr
    have hlen : b.storage.length = pre.length + bs.length + post.length := by simp [hs]; omega
    rw [R.bind_def, guardRead_ok (by omega)]
    simp only
    rw [R.bind_def]
    unfold resizeTo
    rw [if_pos (by omega)]
    exact hy b pre post hv hs hr

/-! ## pairs, maps, uuids, time -/

theorem rt_pair {α β : Type} {ver : ProtocolVersion} {w1 : α → R Unit} {w2 : β → R Unit} {r1 : R α} {r2 : R β}
    (p : α × β) (h1 : RoundTrips ver (w1 p.1) r1 p.1) (h2 : RoundTrips ver (w2 p.2) r2 p.2) :
    RoundTrips ver (wPair w1 w2 p) (rPair r1 r2) p :=
  rt_bind h1 (rt_last h2 rfl)

theorem bytesLt_irrefl (a : List UInt8) : bytesLt a a = false := by
  induction a with
  | nil => rfl
  | cons x xs ih => simp [bytesLt, ih]

theorem mapAssign_last (key value : List UInt8) (tmp : List (List UInt8 × List UInt8))
    (h : ∀ e ∈ tmp, bytesLt e.1 key = true) : mapAssign key value tmp = tmp ++ [(key, value)] := by
  induction tmp with
  | nil => rfl
  | cons e tmp ih =>
    obtain ⟨k, v⟩ := e
    have hk := h (k, v) List.mem_cons_self
    simp only at hk
    have hne : (key == k) = false := by
      rw [beq_eq_false_iff_ne]
      intro he
      subst he
      rw [bytesLt_irrefl] at hk
      cases hk
    simp [mapAssign, hne, hk, ih (fun e he => h e (List.mem_cons_of_mem _ he))]

theorem rt_mapLoop {ver : ProtocolVersion} (m tmp : List (List UInt8 × List UInt8))
    (hm : MapEntries (tmp ++ m)) (h : ∀ e ∈ m, Short e.1 ∧ Short e.2) :
    ∃ bs, Appends ver (wLoop (wPair wBytes wBytes) m) bs ∧ Yields ver (rMapLoop m.length tmp) bs (tmp ++ m) := by
  induction m generalizing tmp with
  | nil =>
    refine ⟨[], ?_, ?_⟩
    · intro b hv hw
      simp [wLoop, R.pure_def]
    · simpa [rMapLoop] using yields_pure tmp
  | cons e m ih =>
    obtain ⟨k, v⟩ := e
    obtain ⟨hk, hvv⟩ := h (k, v) List.mem_cons_self
    simp only at hk hvv
    have hlast : mapAssign k v tmp = tmp ++ [(k, v)] := by
      apply mapAssign_last
      intro e he
      have := (List.pairwise_append.mp hm).2.2 e he (k, v) List.mem_cons_self
      exact this
    obtain ⟨bs, ha, hy⟩ := ih (tmp ++ [(k, v)]) (by simpa [MapEntries] using hm)
      (fun e he => h e (List.mem_cons_of_mem _ he))
    refine ⟨((leBytes 4 k.length ++ k) ++ (leBytes 4 v.length ++ v)) ++ bs,
      appends_bind (appends_bind (appends_bytes k hk) (appends_bytes v hvv)) ha, ?_⟩
    show Yields ver (rBytes >>= fun key => rBytes >>= fun value => rMapLoop m.length (mapAssign key value tmp)) _ _
    rw [List.append_assoc]
    refine yields_bind (yields_bytes k hk) (yields_bind (yields_bytes v hvv) ?_)
    rw [hlast]
    simpa using hy

theorem rt_map {ver : ProtocolVersion} (m : List (List UInt8 × List UInt8)) (hm : MapEntries m) (hs : ShortList m)
    (h : ∀ e ∈ m, Short e.1 ∧ Short e.2) : RoundTrips ver (wMap m) rMap m := by
  have h' : m.length < 2 ^ 32 := hs
  obtain ⟨bs, ha, hy⟩ := rt_mapLoop (ver := ver) m [] (by simpa using hm) h
  refine ⟨leBytes 4 m.length ++ bs, by simp [leBytes], ?_, ?_⟩
  · unfold wMap
    apply appends_bind _ ha
    have := appends_int (ver := ver) (BitVec.ofNat 32 m.length) (by decide)
    rwa [toNat_ofNat32 h'] at this
  · unfold rMap
    have h1 := yields_int (ver := ver) (BitVec.ofNat 32 m.length) (by decide)
    rw [toNat_ofNat32 h'] at h1
    apply yields_bind h1
    rw [toNat_ofNat32 h']
    have := yields_bind (ver := ver) (k := fun tmp : List (List UInt8 × List UInt8) => if (m.length != tmp.length) = true then
      throwing "MessageBuffer unable to deserialize std::map<std::string, std::string>" else pure tmp)
      (c := m) (b2 := []) hy (by simpa using yields_pure m)
    simpa using this

theorem rt_uuid {ver : ProtocolVersion} (u : Uuid) : RoundTrips ver (wUuid u) rUuid u :=
  rt_bind (rt_int u.ab (by decide) (by decide)) (rt_last (rt_int u.cd (by decide) (by decide)) rfl)

theorem rt_duration {ver : ProtocolVersion} (d : BitVec 64) : RoundTrips ver (wDuration d) rDuration d :=
  rt_int d (by decide) (by decide)

theorem rt_ptr {ver : ProtocolVersion} (d : BitVec 64) : RoundTrips ver (wPtr d) rPtr d :=
  rt_int d (by decide) (by decide)

theorem rt_timePoint {ver : ProtocolVersion} (t : BitVec 64) :
    RoundTrips ver (wTimePoint t) rTimePoint (truncMicros t) := by
  unfold wTimePoint rTimePoint
  refine rt_last (rt_duration (t.sdiv 1000)) ?_
  have hlt := t.toInt_lt
  have hle := t.le_toInt
  simp only [Nat.reduceSub] at hlt hle
  have h1000 : (1000 : BitVec 64).toInt = 1000 := by decide
  have hs : (t.sdiv 1000).toInt = t.toInt.tdiv 1000 := by
    rw [BitVec.toInt_sdiv, h1000]
    have e : t.toInt.tdiv 1000 = if 0 ≤ t.toInt then t.toInt / 1000 else -((-t.toInt) / 1000) := by
      split
      · rw [Int.tdiv_eq_ediv_of_nonneg (by omega)]
      · rw [← Int.tdiv_eq_ediv_of_nonneg (a := -t.toInt) (by omega), Int.neg_tdiv, Int.neg_neg]
    apply Int.bmod_eq_of_le
    · rw [e]; split <;> (simp only [Nat.reducePow]; omega)
    · rw [e]; split <;> (simp only [Nat.reducePow]; omega)
  rw [hs]
  have e : t.toInt.tdiv 1000 = if 0 ≤ t.toInt then t.toInt / 1000 else -((-t.toInt) / 1000) := by
    split
    · rw [Int.tdiv_eq_ediv_of_nonneg (by omega)]
    · rw [← Int.tdiv_eq_ediv_of_nonneg (a := -t.toInt) (by omega), Int.neg_tdiv, Int.neg_neg]
  rw [if_pos]
  · rfl
  · constructor
    · rw [e]; split <;> omega
    · rw [e]; split <;> omega

/-! ## safety -/

theorem good_of_ok {α : Type} {b : MessageBuffer} {a : α} (h : b.rPos ≤ b.storage.length) :
    GoodOutcome b (.ok (a, b)) := ⟨rfl, rfl, Nat.le_refl _, h⟩

theorem safe_pure {α : Type} (a : α) : SafeDecoder (pure a : R α) := fun _ h => good_of_ok h

theorem safe_throwing {α : Type} (m : String) : SafeDecoder (throwing m : R α) := fun _ _ => trivial

theorem safe_bind {α β : Type} {r : R α} {k : α → R β} (h1 : SafeDecoder r) (h2 : ∀ a, SafeDecoder (k a)) :
    SafeDecoder (r >>= k) := by
  intro b hb
  have h := h1 b hb
  rw [R.bind_def]
  revert h
  cases r b with
  | throw m => intro _; trivial
  | ub m => intro h; exact h
  | ok p =>
    obtain ⟨a, b'⟩ := p
    intro h
    obtain ⟨e1, e2, e3, e4⟩ := h
    have g := h2 a b' e4
    simp only
    revert g
    cases k a b' with
    | throw m => intro _; trivial
    | ub m => intro h; exact h
    | ok q =>
      obtain ⟨c, b''⟩ := q
      intro g
      obtain ⟨f1, f2, f3, f4⟩ := g
      exact ⟨f1.trans e1, f2.trans e2, Nat.le_trans e3 f3, f4⟩

theorem safe_ite {α : Type} {c : Prop} [Decidable c] {r1 r2 : R α} (h1 : SafeDecoder r1) (h2 : SafeDecoder r2) :
    SafeDecoder (if c then r1 else r2) := by
  split <;> assumption

theorem safe_remaining : SafeDecoder remainingBytesLeft := fun _ h => ⟨rfl, rfl, Nat.le_refl _, h⟩
theorem safe_version : SafeDecoder getProtocolVersion := fun _ h => ⟨rfl, rfl, Nat.le_refl _, h⟩

theorem safe_guarded (n : Nat) {α : Type} (r : R α)
    (h : ∀ b : MessageBuffer, b.rPos + n ≤ b.storage.length → GoodOutcome b (r b)) :
    SafeDecoder (do guardRead n; r) := by
  intro b hb
  rw [R.bind_def]
  unfold guardRead
  by_cases hg : b.rPos + n > b.storage.length
  · rw [if_pos hg]; trivial
  · rw [if_neg hg]
    exact h b (by omega)

theorem good_take (n : Nat) (b : MessageBuffer) (h : b.rPos + n ≤ b.storage.length) :
    GoodOutcome b (takeRead n b) := by
  unfold takeRead copyFrom
  rw [if_pos h]
  exact ⟨rfl, rfl, by simp, h⟩

theorem safe_take (n : Nat) : SafeDecoder (do guardRead n; takeRead n) := safe_guarded n _ (good_take n)

theorem safe_int (w : Nat) : SafeDecoder (rInt w) := by
  unfold rInt
  refine safe_guarded _ _ ?_
  intro b hb
  rw [R.bind_def]
  unfold takeRead copyFrom
  rw [if_pos hb]
  simp only [R.pure_def]
  exact ⟨rfl, rfl, by simp, hb⟩

theorem safe_bytes : SafeDecoder rBytes := safe_bind (safe_int 32) (fun _ => safe_take _)

theorem safe_loop {α : Type} {r : R α} (h : SafeDecoder r) (n : Nat) : SafeDecoder (rLoop r n) := by
  induction n with
  | zero => exact safe_pure _
  | succ n ih => exact safe_bind h (fun _ => safe_bind ih (fun _ => safe_pure _))

theorem safe_vec {α : Type} {r : R α} (h : SafeDecoder r) : SafeDecoder (rVec r) := by
  refine safe_bind (safe_int 32) (fun n => safe_guarded _ _ ?_)
  intro b hb
  rw [R.bind_def]
  unfold resizeTo
  rw [if_pos (by omega)]
  exact safe_loop h _ b (by omega)

theorem safe_array (n : Nat) : SafeDecoder (rArray n) := by
  refine safe_guarded _ _ ?_
  intro b hb
  unfold takeArray copyFrom
  rw [if_pos hb]
  simp only
  rw [dif_pos (by simp; omega)]
  exact ⟨rfl, rfl, by simp, hb⟩

theorem safe_duration : SafeDecoder rDuration := safe_int 64
theorem safe_ptr : SafeDecoder rPtr := safe_int 64
theorem safe_uuid : SafeDecoder rUuid :=
  safe_bind (safe_int 64) (fun _ => safe_bind (safe_int 64) (fun _ => safe_pure _))
theorem safe_pair {α β : Type} {r1 : R α} {r2 : R β} (h1 : SafeDecoder r1) (h2 : SafeDecoder r2) :
    SafeDecoder (rPair r1 r2) := safe_bind h1 (fun _ => safe_bind h2 (fun _ => safe_pure _))

theorem safe_mapLoop (n : Nat) (tmp : List (List UInt8 × List UInt8)) : SafeDecoder (rMapLoop n tmp) := by
  induction n generalizing tmp with
  | zero => exact safe_pure _
  | succ n ih => exact safe_bind safe_bytes (fun _ => safe_bind safe_bytes (fun _ => ih _))

theorem safe_map : SafeDecoder rMap :=
  safe_bind (safe_int 32) (fun _ => safe_bind (safe_mapLoop _ _) (fun _ => safe_ite (safe_throwing _) (safe_pure _)))

/-! memory safety up to overflow -/

theorem msafe_of_safe {α : Type} {r : R α} (h : SafeDecoder r) : MemorySafeDecoder r := by
  intro b hb
  have := h b hb
  revert this
  cases r b with
  | ok p => exact id
  | throw m => exact id
  | ub m => intro h; exact h.elim

theorem msafe_bind {α β : Type} {r : R α} {k : α → R β} (h1 : MemorySafeDecoder r)
    (h2 : ∀ a, MemorySafeDecoder (k a)) : MemorySafeDecoder (r >>= k) := by
  intro b hb
  have h := h1 b hb
  rw [R.bind_def]
  revert h
  cases r b with
  | throw m => intro _; trivial
  | ub m => intro h; exact h
  | ok p =>
    obtain ⟨a, b'⟩ := p
    intro h
    obtain ⟨e1, e2, e3, e4⟩ := h
    have g := h2 a b' e4
    simp only
    revert g
    cases k a b' with
    | throw m => intro _; trivial
    | ub m => intro h; exact h
    | ok q =>
      obtain ⟨c, b''⟩ := q
      intro g
      obtain ⟨f1, f2, f3, f4⟩ := g
      exact ⟨f1.trans e1, f2.trans e2, Nat.le_trans e3 f3, f4⟩

theorem msafe_timePoint : MemorySafeDecoder rTimePoint := by
  refine msafe_bind (msafe_of_safe safe_duration) (fun us => ?_)
  split
  · exact msafe_of_safe (safe_pure _)
  · intro b _; rfl

theorem msafe_ite {α : Type} {c : Prop} [Decidable c] {r1 r2 : R α} (h1 : MemorySafeDecoder r1)
    (h2 : MemorySafeDecoder r2) : MemorySafeDecoder (if c then r1 else r2) := by
  split <;> assumption

end MessageBuffer
end SilKit
