import Verif.Props.Beyond
/-
C151, the converse: a payload refused for want of bytes can be completed.
-/
namespace QuicSea
open Spec
/-- On bytes a reader succeeds, refuses what it contains, or succeeds with a `Q` result once suitable bytes follow. -/
def Mends (r : Rd α) (Q : α → Prop) : Prop := ∀ a : Bytes,
  (∃ x c, r (makeResultStream a) = (.ok x, makeResultStream c)) ∨ (∃ e t, BadContent e ∧ r (makeResultStream a) = (.err e, t)) ∨
  ∃ b x, Q x ∧ r (makeResultStream (a ++ b)) = (.ok x, [])
/-- Some bytes are read to the end. -/
def Easy (r : Rd α) : Prop := ∃ b x, r (makeResultStream b) = (.ok x, [])
/-- A reader without any refusal for contents. -/
abbrev Mendable (r : Rd α) : Prop := Mends r fun _ => True
theorem easy_pure (x : α) : Easy (pure x : Rd α) := ⟨[], x, rfl⟩
theorem easy_bind {m : Rd α} {f : α → Rd β} (hs : Steady m) (hm : Easy m) (hf : ∀ x, Easy (f x)) : Easy (m >>= f) := by
  obtain ⟨b, x, h⟩ := hm
  obtain ⟨c, y, h'⟩ := hf x
  refine ⟨b ++ c, y, ?_⟩
  rw [makeResultStream_append, Rd.bind_ok ((hs _ _).1 _ _ h)]; exact h'
theorem mends_pure (x : α) (Q : α → Prop) : Mends (pure x : Rd α) Q := fun a => .inl ⟨x, a, rfl⟩
theorem mends_fail {e : Error} (h : BadContent e) (Q : α → Prop) : Mends (Rd.fail e : Rd α) Q := fun _ => .inr (.inl ⟨e, _, h, rfl⟩)
theorem mends_bind {m : Rd α} {f : α → Rd β} {Q : α → Prop} (hs : Steady m) (hm : Mends m Q) (hf : ∀ x, Mendable (f x))
    (he : ∀ x, Q x → Easy (f x)) : Mendable (m >>= f) := by
  intro a
  rcases hm a with ⟨x, c, h⟩ | ⟨e, t, h, h'⟩ | ⟨b, x, hq, h⟩
  · rcases hf x c with ⟨y, d, h2⟩ | ⟨e, t, hb, h2⟩ | ⟨b, y, _, h2⟩
    · exact .inl ⟨y, d, by rw [Rd.bind_ok h]; exact h2⟩
    · exact .inr (.inl ⟨e, t, hb, by rw [Rd.bind_ok h]; exact h2⟩)
    · refine .inr (.inr ⟨b, y, trivial, ?_⟩)
      rw [makeResultStream_append, Rd.bind_ok ((hs _ _).1 _ _ h), ← makeResultStream_append]; exact h2
  · exact .inr (.inl ⟨e, t, h, Rd.bind_err h'⟩)
  · obtain ⟨c, y, h2⟩ := he x hq
    refine .inr (.inr ⟨b ++ c, y, trivial, ?_⟩)
    rw [← List.append_assoc, makeResultStream_append, Rd.bind_ok ((hs _ _).1 _ _ h)]; exact h2
theorem mends_map {m : Rd α} (hm : Mendable m) (g : α → β) : Mendable (m >>= fun x => pure (g x)) := by
  intro a
  rcases hm a with ⟨x, c, h⟩ | ⟨e, t, h, h'⟩ | ⟨b, x, hq, h⟩
  · exact .inl ⟨g x, c, by rw [Rd.bind_ok h]; rfl⟩
  · exact .inr (.inl ⟨e, t, h, Rd.bind_err h'⟩)
  · exact .inr (.inr ⟨b, g x, trivial, by rw [Rd.bind_ok h]; rfl⟩)
theorem easy_next (m : String) : Easy (nextOr m) := ⟨[0], 0, rfl⟩
theorem mends_next (m : String) (v : U8) : Mends (nextOr m) (· = v) := by
  intro a
  cases a with
  | nil => exact .inr (.inr ⟨[v], v, rfl, rfl⟩)
  | cons c a => exact .inl ⟨c, a, rfl⟩
/-- A reader that can be completed whatever it has read, and begun from nothing. -/
structure Open (r : Rd α) : Prop where
  steady : Steady r
  mends : Mendable r
  easy : Easy r
theorem Open.pure (x : α) : Open (Pure.pure x : Rd α) := ⟨steady_pure x, mends_pure x _, easy_pure x⟩
theorem Open.bind {m : Rd α} {f : α → Rd β} (hm : Open m) (hf : ∀ x, Open (f x)) : Open (m >>= f) :=
  ⟨steady_bind hm.steady fun x => (hf x).steady, mends_bind hm.steady hm.mends (fun x => (hf x).mends) fun x _ => (hf x).easy,
   easy_bind hm.steady hm.easy fun x => (hf x).easy⟩
theorem Open.ite {c : Prop} [Decidable c] {x y : Rd α} (hx : Open x) (hy : Open y) : Open (if c then x else y) := by
  split <;> assumption
theorem open_next {m : String} (h : ¬ BadContent (.internalError m)) : Open (nextOr m) :=
  ⟨steady_nextOr h, fun a => (mends_next m 0 a).imp id (.imp id fun ⟨b, x, _, h⟩ => ⟨b, x, trivial, h⟩), easy_next m⟩
theorem open_varIntLoop (n : Nat) (x : U64) : Open (varIntLoop n x) := by
  induction n generalizing x with
  | zero => exact .pure _
  | succ n ih => exact (open_next (by simp [BadContent])).bind fun _ => ih _
theorem open_varInt : Open varIntFromStream := (open_next (by simp [BadContent])).bind fun _ => open_varIntLoop _ _
theorem open_varBytes (n : Nat) : Open (varBytesFromStream n) := by
  induction n with
  | zero => exact .pure _
  | succ n ih => exact (open_next (by simp [BadContent])).bind fun _ => ih.bind fun _ => .pure _
theorem open_ackRange : Open AckRange.fromDatagram := open_varInt.bind fun _ => open_varInt.bind fun _ => .pure _
theorem open_ackRanges (n : Nat) : Open (FrameAck.rangesFromDatagram n) := by
  induction n with
  | zero => exact .pure _
  | succ n ih => exact open_ackRange.bind fun _ => ih.bind fun _ => .pure _
theorem open_ecn : Open EcnCounts.fromDatagram :=
  open_varInt.bind fun _ => open_varInt.bind fun _ => open_varInt.bind fun _ => .pure _
theorem open_ack (tb : U8) : Open (FrameAck.fromDatagram tb) :=
  open_varInt.bind fun _ => open_varInt.bind fun _ => open_varInt.bind fun _ => open_varInt.bind fun _ =>
  (open_ackRanges _).bind fun _ => .ite (open_ecn.bind fun _ => (Open.pure _).bind fun _ => .pure _) ((Open.pure _).bind fun _ => .pure _)
theorem open_connectionClose (tb : U8) : Open (FrameConnectionClose.fromDatagram tb) :=
  open_varInt.bind fun _ => .ite
    (open_varInt.bind fun _ => (Open.pure _).bind fun _ => open_varInt.bind fun _ => (open_varBytes _).bind fun _ => .pure _)
    ((Open.pure _).bind fun _ => open_varInt.bind fun _ => (open_varBytes _).bind fun _ => .pure _)
theorem open_u160Loop {m : String} (h : ¬ BadContent (.internalError m)) (n : Nat) (x : U32) (y : U128) : Open (u160Loop m n x y) := by
  induction n generalizing x y with
  | zero => exact .pure _
  | succ n ih => exact (open_next h).bind fun _ => ih _ _
theorem open_uint {m : String} (h : ¬ BadContent (.internalError m)) {n : Nat} (hn : 1 ≤ n) : Open (uintFromDatagram n m) := by
  have rd : ∀ bs : Bytes, bs.length = n → ∃ x, ∀ s, uintFromDatagram n m (makeResultStream bs ++ s) = (.ok x, s) := fun bs hl =>
    ⟨BitVec.ofNat (8 * n) (beNat bs), uint_reads' m hn hl (by
      rw [BitVec.toNat_ofNat, Nat.mod_eq_of_lt]
      have := beNat_lt bs
      rw [hl] at this
      rwa [Nat.pow_mul])⟩
  refine ⟨steady_uint h n, fun a => ?_, ?_⟩
  · by_cases hl : n ≤ a.length
    · obtain ⟨x, hx⟩ := rd (a.take n) (by simp; omega)
      refine .inl ⟨x, a.drop n, ?_⟩
      rw [← hx (makeResultStream (a.drop n)), ← makeResultStream_append, List.take_append_drop]
    · obtain ⟨x, hx⟩ := rd (a ++ List.replicate (n - a.length) 0) (by simp; omega)
      exact .inr (.inr ⟨List.replicate (n - a.length) 0, x, trivial, by rw [← hx [], List.append_nil]⟩)
  · obtain ⟨x, hx⟩ := rd (List.replicate n 0) (by simp)
    exact ⟨List.replicate n 0, x, by rw [← hx [], List.append_nil]⟩
theorem mends_u8 : Mends u8FromDatagram (· = 1) := by
  intro a
  cases a with
  | nil => exact .inr (.inr ⟨[1], 1, rfl, rfl⟩)
  | cons c a => exact .inl ⟨c, a, rfl⟩
theorem mends_newConnectionId : Mendable FrameNewConnectionId.fromDatagram := by
  have body (seq ret : U64) (len : U8) : Open (do
      let connectionId ← varU160FromStream len
      let statelessResetToken ← u128FromDatagram
      pure (FrameNewConnectionId.mk seq ret len connectionId statelessResetToken) : Rd FrameNewConnectionId) :=
    (open_u160Loop (by simp [BadContent]) _ _ _).bind fun _ => (open_uint (by simp [BadContent]) (by omega)).bind fun _ => .pure _
  have one (seq ret : U64) : Easy (do
      let length ← u8FromDatagram
      if 1 > length.toNat ∨ length.toNat > 20 then
        Rd.fail (.internalError "invalid connection id length")
      else do
        let connectionId ← varU160FromStream length
        let statelessResetToken ← u128FromDatagram
        pure (FrameNewConnectionId.mk seq ret length connectionId statelessResetToken) : Rd FrameNewConnectionId) := by
    obtain ⟨b, x, h⟩ := (body seq ret 1).easy
    exact ⟨[1] ++ b, x, by
      rw [makeResultStream_append, Rd.bind_ok (u8_reads 1 _), if_neg (by decide)]; exact h⟩
  refine mends_bind steady_varInt open_varInt.mends (fun _ => mends_bind steady_varInt open_varInt.mends (fun _ => mends_bind steady_u8 mends_u8 (fun l => ?_) ?_) fun _ _ => one _ _)
    fun _ _ => easy_bind steady_varInt open_varInt.easy fun _ => one _ _
  · split
    · exact mends_fail (.inr rfl) _
    · exact (body _ _ _).mends
  · rintro _ rfl
    rw [if_neg (by decide)]
    exact (body _ _ _).easy
theorem mends_stream (tb : U8) : Mendable (FrameStream.fromDatagram tb) := by
  have all (a : Bytes) : allBytesFromStream (makeResultStream a) = (.ok a, []) := by
    induction a with
    | nil => rfl
    | cons c a ih => rw [makeResultStream_cons, allBytesFromStream, ih]
  rw [stream_fromDatagram_eq]
  exact mends_bind steady_varInt open_varInt.mends (fun _ => mends_map (fun a => .inl ⟨a, [], all a⟩) _) fun _ _ => ⟨[], _, rfl⟩
theorem mends_ite {c : Prop} [Decidable c] {x y : Rd α} (hx : Mendable x) (hy : Mendable y) : Mendable (if c then x else y) := by
  split <;> assumption
theorem mends_body (tb : U8) : Mendable (deserializeFrameBody tb) := by
  have v1 {α : Type} (g : U64 → α) : Open (varIntFromStream >>= fun x => pure (g x) : Rd α) := open_varInt.bind fun _ => .pure _
  have d1 {α : Type} (g : U64 → α) : Open (u64FromDatagram >>= fun x => pure (g x) : Rd α) :=
    (open_uint (by simp [BadContent]) (by omega)).bind fun _ => .pure _
  have k {α : Type} {r : Rd α} (h : Open r) (g : α → Frame) : Mendable (r >>= fun x => pure (g x)) := mends_map h.mends g
  unfold deserializeFrameBody
  dsimp only
  refine mends_ite (mends_pure _ _) <| mends_ite (mends_pure _ _) <| mends_ite (k (open_ack tb) _) <|
    mends_ite (k (open_varInt.bind fun _ => open_varInt.bind fun _ => v1 _) _) <|
    mends_ite (k (open_varInt.bind fun _ => v1 _) _) <|
    mends_ite (k (open_varInt.bind fun _ => open_varInt.bind fun _ => (open_varBytes _).bind fun _ => .pure _) _) <|
    mends_ite (k (open_varInt.bind fun _ => (open_varBytes _).bind fun _ => .pure _) _) <|
    mends_ite (mends_map (mends_stream tb) _) <|
    mends_ite (k (v1 _) _) <| mends_ite (k (open_varInt.bind fun _ => v1 _) _) <| mends_ite (k (v1 _) _) <|
    mends_ite (k (v1 _) _) <| mends_ite (k (open_varInt.bind fun _ => v1 _) _) <| mends_ite (k (v1 _) _) <|
    mends_ite (mends_map mends_newConnectionId _) <| mends_ite (k (v1 _) _) <|
    mends_ite (k (d1 _) _) <| mends_ite (k (d1 _) _) <|
    mends_ite (k (open_connectionClose tb) _) <| mends_ite (mends_pure _ _) (mends_fail (.inl rfl) _)
/-- The type of a PADDING frame, as `deserialize_frame` masks it. -/
def ZeroType (x : U64) : Prop := (x &&& (((1 : U64) <<< 8) - 1)).setWidth 8 = (0 : U8)
theorem zeros_loop (n : Nat) (x : U64) : ∃ y, ZeroType y ∧ varIntLoop (n + 1) x (makeResultStream (List.replicate (n + 1) 0)) = (.ok y, []) := by
  induction n generalizing x with
  | zero =>
    refine ⟨_, ?_, rfl⟩
    unfold ZeroType
    apply BitVec.eq_of_toNat_eq
    simp
  | succ n ih => exact ih _
theorem mends_varIntLoop (n : Nat) (x : U64) : Mends (varIntLoop n x) ZeroType := by
  intro a
  induction n generalizing x a with
  | zero => exact .inl ⟨x, a, rfl⟩
  | succ n ih =>
    cases a with
    | nil =>
      obtain ⟨y, h, h'⟩ := zeros_loop n x
      exact .inr (.inr ⟨_, y, h, h'⟩)
    | cons c a => exact ih _ a
theorem mends_type : Mends varIntFromStream ZeroType := by
  intro a
  cases a with
  | nil => exact .inr (.inr ⟨[0], 0, rfl, rfl⟩)
  | cons c a => exact mends_varIntLoop _ _ a
theorem mends_frame : Mendable deserializeFrame :=
  mends_bind steady_varInt mends_type (fun _ => mends_body _) fun x hx => by
    unfold ZeroType at hx
    rw [hx]
    exact easy_pure _

/-- C151, the converse: a payload refused for want of bytes is parsed once suitable bytes follow. -/
theorem C151_mended (a : Bytes) (e : Error) (he : ¬ BadContent e) (h : (deserializeFrames (makeResultStream a)).1 = .err e) :
    ∃ b fs, (deserializeFrames (makeResultStream (a ++ b))).1 = .ok fs := by
  generalize hn : a.length = n
  induction n using Nat.strongRecOn generalizing a with
  | _ n ih =>
    have ne {c : Bytes} (hc : a ≠ []) : makeResultStream (a ++ c) ≠ [] := by simp [makeResultStream, hc]
    by_cases ha : a = []
    · subst ha; rw [show makeResultStream [] = [] from rfl, frames_nil] at h; simp at h
    have ha0 : makeResultStream a ≠ [] := by simp [makeResultStream, ha]
    rcases mends_frame a with ⟨f, c, hf⟩ | ⟨e', t, hb, hf⟩ | ⟨b, f, _, hf⟩
    · rw [frames_cons ha0 hf] at h
      have h2 : (deserializeFrames (makeResultStream c)).1 = .err e := by
        rcases hx : (deserializeFrames (makeResultStream c)).1 with _ | _ | _ <;> rw [hx] at h <;> simp_all [afterFrames]
      have hlt : c.length < n := by have := frame_consumes hf; simpa [makeResultStream, hn] using this
      obtain ⟨b, fs, hfs⟩ := ih _ hlt c h2 rfl
      rcases (lasting_frame _ (makeResultStream b)).1 _ _ hf with h3 | h3
      · rw [h3, frames_nil] at h2; simp at h2
      · rw [← makeResultStream_append, ← makeResultStream_append] at h3
        exact ⟨b, f :: fs, by rw [frames_cons (ne ha) h3, hfs]; rfl⟩
    · rw [frames_step _ ha0, Rd.bind_apply, hf] at h
      have : e' = e := by simpa using h
      exact absurd (this ▸ hb) he
    · exact ⟨b, [f], by rw [frames_cons (ne ha) hf, frames_nil]; rfl⟩
/-- C151, exactly: a payload that no bytes can complete is one refused for what it contains. -/
theorem C151_exact (a : Bytes) :
    (∀ b, ∃ e, (deserializeFrames (makeResultStream (a ++ b))).1 = .err e) ↔
      ∃ e, BadContent e ∧ (deserializeFrames (makeResultStream a)).1 = .err e := by
  constructor
  · intro h
    obtain ⟨e, he⟩ := h []
    rw [List.append_nil] at he
    refine ⟨e, Classical.byContradiction fun hb => ?_, he⟩
    obtain ⟨b, fs, hfs⟩ := C151_mended a e hb he
    obtain ⟨e', h'⟩ := h b
    rw [hfs] at h'; simp at h'
  · rintro ⟨e, hb, he⟩ b
    exact ⟨e, C151_all a b e hb he⟩

/-- A case: a NEW_CONNECTION_ID frame cut off before its length, after an ACK frame. -/
example : ∃ e, ¬ BadContent e ∧ (deserializeFrames (makeResultStream [0x02, 0x09, 0x00, 0x00, 0x02, 0x18, 0x05, 0x40])).1 = .err e :=
  ⟨.internalError "not enough bytes for varint", by simp [BadContent], by decide +kernel⟩
end QuicSea
