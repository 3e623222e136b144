import Verif.Proofs.Frame
/-
Whole frames and lists of frames.
-/
namespace QuicSea
open Spec (beNat IsVarInt cidVal AckRangesWire EcnWire FrameBody)

/-- The dispatched type byte is the type modulo 256. -/
theorem type_mask (t : U64) : ((t &&& (((1 : U64) <<< 8) - 1)).setWidth 8 : U8).toNat = t.toNat % 256 := by
  have : (((1 : U64) <<< 8) - 1) = 255#64 := by decide
  rw [this, BitVec.toNat_setWidth, BitVec.toNat_and]
  have : (255#64).toNat = 2 ^ 8 - 1 := rfl
  rw [this, Nat.and_two_pow_sub_one_eq_mod]
  omega

theorem frame_complete {f : Frame} {t : U64} {tb b : Bytes} {rest : Stream} (ht : IsVarInt tb t.toNat)
    (h : CodeBody f (t.toNat % 256) b rest) :
    deserializeFrame (makeResultStream tb ++ (makeResultStream b ++ rest)) = (.ok f, rest) := by
  unfold deserializeFrame
  rw [Rd.bind_ok (varInt_reads ht _)]
  exact codeBody_complete (by rw [type_mask]; exact h)
theorem frame_sound {f : Frame} {s s' : Stream} (h : deserializeFrame s = (.ok f, s')) :
    ∃ (t : U64) (tb b : Bytes), s = makeResultStream tb ++ (makeResultStream b ++ s') ∧ IsVarInt tb t.toNat ∧
      CodeBody f (t.toNat % 256) b s' := by
  obtain ⟨t, s1, h1, h⟩ := Rd.bind_eq_ok h
  obtain ⟨tb, e1, r1⟩ := varInt_sound _ _ _ h1
  obtain ⟨b, e2, r2⟩ := codeBody_sound h
  rw [type_mask] at r2
  exact ⟨t, tb, b, by rw [e1, e2], r1, r2⟩

theorem _root_.Spec.IsVarInt.length_pos {bs : Bytes} {v : Nat} (h : IsVarInt bs v) : 0 < bs.length := by
  obtain ⟨b, r, rfl, _⟩ := h.shape
  simp
theorem frame_consumes {f : Frame} {s s' : Stream} (h : deserializeFrame s = (.ok f, s')) : s'.length < s.length := by
  obtain ⟨t, tb, b, e, ht, _⟩ := frame_sound h
  have := ht.length_pos
  rw [e]
  simp
  omega

/-! panics and what is left -/
theorem NoPanic.optMatch {o : Option α} {a : α → Rd β} {b : Rd β} (ha : ∀ x, NoPanic (a x)) (hb : NoPanic b) :
    NoPanic (match o with | some x => a x | none => b) := by cases o <;> simp_all

theorem ackRange_noPanic : NoPanic AckRange.fromDatagram :=
  varInt_noPanic.bind fun _ => varInt_noPanic.bind fun _ => NoPanic.pure _
theorem ackRange_shrinks : Shrinks AckRange.fromDatagram :=
  varInt_shrinks.bind fun _ => varInt_shrinks.bind fun _ => Shrinks.pure _
theorem ranges_noPanic (n : Nat) : NoPanic (FrameAck.rangesFromDatagram n) := by
  induction n with
  | zero => exact NoPanic.pure _
  | succ n ih => exact ackRange_noPanic.bind fun _ => ih.bind fun _ => NoPanic.pure _
theorem ranges_shrinks (n : Nat) : Shrinks (FrameAck.rangesFromDatagram n) := by
  induction n with
  | zero => exact Shrinks.pure _
  | succ n ih => exact ackRange_shrinks.bind fun _ => ih.bind fun _ => Shrinks.pure _
theorem ecn_noPanic : NoPanic EcnCounts.fromDatagram :=
  varInt_noPanic.bind fun _ => varInt_noPanic.bind fun _ => varInt_noPanic.bind fun _ => NoPanic.pure _
theorem ecn_shrinks : Shrinks EcnCounts.fromDatagram :=
  varInt_shrinks.bind fun _ => varInt_shrinks.bind fun _ => varInt_shrinks.bind fun _ => Shrinks.pure _
theorem cid_noPanic (len : U8) : NoPanic (varU160FromStream len) := u160Loop_noPanic _ _ _ _
theorem cid_shrinks (len : U8) : Shrinks (varU160FromStream len) := u160Loop_shrinks _ _ _ _

/-- Closes `NoPanic` goals of straight-line readers. -/
macro "np" : tactic => `(tactic| repeat' first
  | refine NoPanic.ite ?_ ?_ | exact NoPanic.pure _ | exact NoPanic.fail _ | exact varInt_noPanic | exact varBytes_noPanic _ | exact allBytes_noPanic
  | exact u8_noPanic | exact uint_noPanic _ _ | exact cid_noPanic _ | exact ranges_noPanic _ | exact ecn_noPanic
  | refine NoPanic.bind ?_ fun _ => ?_ | split)
macro "shr" : tactic => `(tactic| repeat' first
  | refine Shrinks.ite ?_ ?_ | exact Shrinks.pure _ | exact Shrinks.fail _ | exact varInt_shrinks | exact varBytes_shrinks _ | exact allBytes_shrinks
  | exact u8_shrinks | exact uint_shrinks _ _ | exact cid_shrinks _ | exact ranges_shrinks _ | exact ecn_shrinks
  | refine Shrinks.bind ?_ fun _ => ?_ | split)

theorem body_noPanic (tb : U8) : NoPanic (deserializeFrameBody tb) := by
  simp only [deserializeFrameBody, FrameAck.fromDatagram, FrameResetStream.fromDatagram, FrameStopSending.fromDatagram,
    FrameCrypto.fromDatagram, FrameNewToken.fromDatagram, stream_fromDatagram_eq, FrameMaxData.fromDatagram,
    FrameMaxStreamData.fromDatagram, FrameMaxStreams.fromDatagram, FrameDataBlocked.fromDatagram,
    FrameStreamDataBlocked.fromDatagram, FrameStreamsBlocked.fromDatagram, FrameNewConnectionId.fromDatagram,
    FrameRetireConnectionId.fromDatagram, FramePathChallenge.fromDatagram, FramePathResponse.fromDatagram,
    FrameConnectionClose.fromDatagram, u64FromDatagram, u128FromDatagram]
  np
theorem body_shrinks (tb : U8) : Shrinks (deserializeFrameBody tb) := by
  simp only [deserializeFrameBody, FrameAck.fromDatagram, FrameResetStream.fromDatagram, FrameStopSending.fromDatagram,
    FrameCrypto.fromDatagram, FrameNewToken.fromDatagram, stream_fromDatagram_eq, FrameMaxData.fromDatagram,
    FrameMaxStreamData.fromDatagram, FrameMaxStreams.fromDatagram, FrameDataBlocked.fromDatagram,
    FrameStreamDataBlocked.fromDatagram, FrameStreamsBlocked.fromDatagram, FrameNewConnectionId.fromDatagram,
    FrameRetireConnectionId.fromDatagram, FramePathChallenge.fromDatagram, FramePathResponse.fromDatagram,
    FrameConnectionClose.fromDatagram, u64FromDatagram, u128FromDatagram]
  shr
theorem frame_noPanic : NoPanic deserializeFrame := varInt_noPanic.bind fun _ => body_noPanic _
theorem frame_shrinks : Shrinks deserializeFrame := varInt_shrinks.bind fun _ => body_shrinks _

/-! the loop -/
/-- More fuel than items left: the result does not depend on it. -/
theorem framesLoop_fuel (n : Nat) (s : Stream) : ∀ f1 f2, s.length ≤ n → n ≤ f1 → n ≤ f2 →
    deserializeFramesLoop f1 s = deserializeFramesLoop f2 s := by
  induction n generalizing s with
  | zero =>
    intro f1 f2 h _ _
    have : s = [] := List.eq_nil_of_length_eq_zero (by omega)
    subst this
    cases f1 <;> cases f2 <;> rfl
  | succ n ih =>
    intro f1 f2 h h1 h2
    match s, f1, f2, h1, h2 with
    | [], 0, _, _, _ => omega
    | [], _ + 1, _ + 1, _, _ => rfl
    | x :: s, g1 + 1, g2 + 1, h1, h2 =>
      simp only [deserializeFramesLoop]
      rcases hd : deserializeFrame (x :: s) with ⟨o, s'⟩
      cases o with
      | ok f =>
        have := frame_consumes hd
        simp only
        rw [ih s' g1 g2 (by simp at this h; omega) (by omega) (by omega)]
      | err e => rfl
      | panic w => rfl

/-- The loop of the source: stop at the end of the stream, else read one frame and continue. -/
theorem deserializeFrames_eq (s : Stream) : deserializeFrames s =
    match s with
    | [] => (.ok [], [])
    | s => match deserializeFrame s with
      | (.ok f, s') =>
        match deserializeFrames s' with
        | (.ok fs, s'') => (.ok (f :: fs), s'')
        | r => r
      | (.err e, s') => (.err e, s')
      | (.panic w, s') => (.panic w, s') := by
  match s with
  | [] => rfl
  | x :: s =>
    show deserializeFramesLoop ((x :: s).length + 1) (x :: s) = _
    simp only [deserializeFramesLoop]
    rcases hd : deserializeFrame (x :: s) with ⟨o, s'⟩
    cases o with
    | ok f =>
      have := frame_consumes hd
      simp only [deserializeFrames]
      rw [framesLoop_fuel s'.length s' ((x :: s).length) (s'.length + 1) (Nat.le_refl _) (by omega) (by omega)]
      rfl
    | err e => rfl
    | panic w => rfl

/-- What `deserialize_frames` accepts. -/
inductive CodeFrames : List Frame → Bytes → Prop
  | nil : CodeFrames [] []
  | cons {f fs tb b bs} {t : U64} : IsVarInt tb t.toNat → CodeBody f (t.toNat % 256) b (makeResultStream bs) → CodeFrames fs bs →
      CodeFrames (f :: fs) (tb ++ (b ++ bs))

theorem frames_complete {fs : List Frame} {bs : Bytes} (h : CodeFrames fs bs) :
    deserializeFrames (makeResultStream bs) = (.ok fs, []) := by
  induction h with
  | nil => rfl
  | @cons f fs tb b bs t ht hb _ ih =>
    have := frame_complete ht hb
    rw [deserializeFrames_eq]
    obtain ⟨c, r, rfl, _⟩ := ht.shape
    simp only [List.cons_append, makeResultStream_cons, makeResultStream_append] at this ⊢
    simp only [this, ih]
theorem frames_sound : ∀ (n : Nat) {s s' : Stream} {fs : List Frame}, s.length ≤ n → deserializeFrames s = (.ok fs, s') →
    s' = [] ∧ ∃ bs, s = makeResultStream bs ∧ CodeFrames fs bs := by
  intro n
  induction n with
  | zero =>
    intro s s' fs hn h
    have : s = [] := List.eq_nil_of_length_eq_zero (by omega)
    subst this
    cases h
    exact ⟨rfl, [], rfl, .nil⟩
  | succ n ih =>
    intro s s' fs hn h
    rw [deserializeFrames_eq] at h
    match s with
    | [] => cases h; exact ⟨rfl, [], rfl, .nil⟩
    | x :: s =>
      simp only at h
      rcases hd : deserializeFrame (x :: s) with ⟨o, s1⟩
      rw [hd] at h
      cases o with
      | err e => cases h
      | panic w => cases h
      | ok f =>
        have hc := frame_consumes hd
        simp only at h
        rcases hf : deserializeFrames s1 with ⟨o2, s2⟩
        rw [hf] at h
        cases o2 with
        | err e => cases h
        | panic w => cases h
        | ok gs =>
          cases h
          obtain ⟨rfl, bs, rfl, hcf⟩ := ih (by simp at hc hn; omega) hf
          obtain ⟨t, tb, b, e, ht, hb⟩ := frame_sound hd
          exact ⟨rfl, tb ++ (b ++ bs), by rw [e]; simp, .cons ht hb hcf⟩
/-- `deserialize_frames` succeeds exactly on the plain byte streams in its language. -/
theorem frames_iff {s s' : Stream} {fs : List Frame} : deserializeFrames s = (.ok fs, s') ↔
    s' = [] ∧ ∃ bs, s = makeResultStream bs ∧ CodeFrames fs bs := by
  constructor
  · exact fun h => frames_sound _ (Nat.le_refl _) h
  · rintro ⟨rfl, bs, rfl, h⟩; exact frames_complete h
theorem frames_noPanic_aux : ∀ (n : Nat) (s : Stream), s.length ≤ n → (deserializeFrames s).1.isPanic = false := by
  intro n
  induction n with
  | zero =>
    intro s hn
    have : s = [] := List.eq_nil_of_length_eq_zero (by omega)
    subst this; rfl
  | succ n ih =>
    intro s hn
    rw [deserializeFrames_eq]
    match s with
    | [] => rfl
    | x :: s =>
      have hp := frame_noPanic (x :: s)
      simp only
      rcases hd : deserializeFrame (x :: s) with ⟨o, s1⟩
      rw [hd] at hp
      cases o with
      | err e => rfl
      | panic w => simp at hp
      | ok f =>
        have hc := frame_consumes hd
        have := ih s1 (by simp at hc hn; omega)
        simp only
        rcases hf : deserializeFrames s1 with ⟨o2, s2⟩
        rw [hf] at this
        cases o2 <;> simp_all
theorem frames_noPanic : NoPanic deserializeFrames := fun s => frames_noPanic_aux _ s (Nat.le_refl _)

end QuicSea
