import Verif.Props.Concat
/-
C151: a payload refused for what it contains stays refused, whatever bytes follow it.
-/
namespace Spec
open QuicSea
/-- A refusal for what was read (an unknown frame type, a connection id length outside 1..20), as opposed to one for bytes
that are missing. -/
def BadContent (e : Error) : Prop :=
  e = .internalError "Invalid type byte" ∨ e = .internalError "invalid connection id length"
/-- C151: a payload refused for what it contains is refused for the same reason whatever bytes follow it. -/
def C151Statement : Prop :=
  ∀ (a b : Bytes) (e : Error), BadContent e → (deserializeFrames (makeResultStream a)).1 = .err e →
    (deserializeFrames (makeResultStream (a ++ b))).1 = .err e
end Spec
namespace QuicSea
open Spec
/-- What a reader returned does not depend on what follows; only a want of bytes does. -/
def Steady (r : Rd α) : Prop := ∀ s b : Stream,
  (∀ x t, r s = (.ok x, t) → r (s ++ b) = (.ok x, t ++ b)) ∧
  (∀ e t, BadContent e → r s = (.err e, t) → r (s ++ b) = (.err e, t ++ b))
/-- The same, except that success may have used up everything. -/
def Lasting (r : Rd α) : Prop := ∀ s b : Stream,
  (∀ x t, r s = (.ok x, t) → t = [] ∨ r (s ++ b) = (.ok x, t ++ b)) ∧
  (∀ e t, BadContent e → r s = (.err e, t) → r (s ++ b) = (.err e, t ++ b))
theorem Steady.lasting {r : Rd α} (h : Steady r) : Lasting r := fun s b => ⟨fun x t e => .inr ((h s b).1 x t e), (h s b).2⟩
theorem steady_pure (x : α) : Steady (pure x : Rd α) := by
  intro s b
  refine ⟨fun y t e => ?_, fun e t _ h => ?_⟩
  · obtain ⟨rfl, rfl⟩ : x = y ∧ s = t := by
      have e : (Out.ok x, s) = (Out.ok y, t) := e
      simpa using e
    rfl
  · have h : (Out.ok x, s) = (Out.err e, t) := h
    simp at h
theorem steady_fail (e : Error) : Steady (Rd.fail e : Rd α) := by
  intro s b
  refine ⟨fun y t h => ?_, fun e' t _ h => ?_⟩
  · have h : ((Out.err e : Out α), s) = (Out.ok y, t) := h
    simp at h
  · obtain ⟨rfl, rfl⟩ : e = e' ∧ s = t := by
      have h : ((Out.err e : Out α), s) = (Out.err e', t) := h
      simpa using h
    rfl
theorem steady_bind {m : Rd α} {f : α → Rd β} (hm : Steady m) (hf : ∀ x, Steady (f x)) : Steady (m >>= f) := by
  intro s b
  have h1 := hm s b
  rw [Rd.bind_apply, Rd.bind_apply]
  rcases h : m s with ⟨o, t⟩
  cases o with
  | ok x => rw [h1.1 x t h]; exact hf x t b
  | err e =>
    refine ⟨fun x t' h' => by simp at h', fun e' t' he h' => ?_⟩
    obtain ⟨rfl, rfl⟩ : e = e' ∧ t = t' := by simpa using h'
    rw [h1.2 e t he h]
  | panic w => exact ⟨fun x t' h' => by simp at h', fun e' t' he h' => by simp at h'⟩
theorem lasting_bind {m : Rd α} {f : α → Rd β} (hm : Steady m) (hf : ∀ x, Lasting (f x)) : Lasting (m >>= f) := by
  intro s b
  have h1 := hm s b
  rw [Rd.bind_apply, Rd.bind_apply]
  rcases h : m s with ⟨o, t⟩
  cases o with
  | ok x => rw [h1.1 x t h]; exact hf x t b
  | err e =>
    refine ⟨fun x t' h' => by simp at h', fun e' t' he h' => ?_⟩
    obtain ⟨rfl, rfl⟩ : e = e' ∧ t = t' := by simpa using h'
    rw [h1.2 e t he h]
  | panic w => exact ⟨fun x t' h' => by simp at h', fun e' t' he h' => by simp at h'⟩
theorem lasting_map {m : Rd α} (hm : Lasting m) (g : α → β) : Lasting (m >>= fun x => pure (g x)) := by
  intro s b
  have h1 := hm s b
  rw [Rd.bind_apply, Rd.bind_apply]
  rcases h : m s with ⟨o, t⟩
  cases o with
  | ok x =>
    refine ⟨fun y t' h' => ?_, fun e' t' he h' => ?_⟩
    · have h' : (Out.ok (g x), t) = (Out.ok y, t') := h'
      obtain ⟨rfl, rfl⟩ : g x = y ∧ t = t' := by simpa using h'
      rcases h1.1 x t h with h2 | h2
      · exact .inl h2
      · right; rw [h2]; rfl
    · have h' : (Out.ok (g x), t) = (Out.err e', t') := h'
      simp at h'
  | err e =>
    refine ⟨fun x t' h' => by simp at h', fun e' t' he h' => ?_⟩
    obtain ⟨rfl, rfl⟩ : e = e' ∧ t = t' := by simpa using h'
    rw [h1.2 e t he h]
  | panic w => exact ⟨fun x t' h' => by simp at h', fun e' t' he h' => by simp at h'⟩
theorem steady_nextOr {m : String} (h : ¬ BadContent (.internalError m)) : Steady (nextOr m) := by
  intro s b
  match s with
  | [] =>
    refine ⟨fun x t h' => by simp [nextOr] at h', fun e t he h' => ?_⟩
    simp only [nextOr, Prod.mk.injEq, Out.err.injEq] at h'
    exact absurd (h'.1 ▸ he) h
  | .ok c :: s =>
    refine ⟨fun x t h' => ?_, fun e t he h' => by simp [nextOr] at h'⟩
    simp only [nextOr, Prod.mk.injEq, Out.ok.injEq] at h'
    obtain ⟨rfl, rfl⟩ := h'; rfl
  | .error c :: s =>
    refine ⟨fun x t h' => by simp [nextOr] at h', fun e t he h' => ?_⟩
    simp only [nextOr, Prod.mk.injEq, Out.err.injEq] at h'
    obtain ⟨rfl, rfl⟩ := h'; rfl
theorem lasting_allBytes : Lasting allBytesFromStream := by
  intro s b
  induction s with
  | nil =>
    refine ⟨fun x t h' => ?_, fun e t he h' => by simp [allBytesFromStream] at h'⟩
    simp only [allBytesFromStream, Prod.mk.injEq] at h'
    exact .inl h'.2.symm
  | cons c s ih =>
    cases c with
    | error c =>
      refine ⟨fun x t h' => by simp [allBytesFromStream] at h', fun e t he h' => ?_⟩
      simp only [allBytesFromStream, Prod.mk.injEq, Out.err.injEq] at h'
      obtain ⟨rfl, rfl⟩ := h'; rfl
    | ok c =>
      simp only [List.cons_append, allBytesFromStream]
      rcases h : allBytesFromStream s with ⟨o, t0⟩
      cases o with
      | ok bs =>
        refine ⟨fun x t h' => ?_, fun e t he h' => by simp at h'⟩
        simp only [Prod.mk.injEq, Out.ok.injEq] at h'
        obtain ⟨rfl, rfl⟩ := h'
        rcases ih.1 _ _ h with h2 | h2
        · exact .inl h2
        · right; rw [h2]
      | err e0 =>
        refine ⟨fun x t h' => by simp at h', fun e t he h' => ?_⟩
        simp only [Prod.mk.injEq, Out.err.injEq] at h'
        obtain ⟨rfl, rfl⟩ := h'
        rw [ih.2 _ _ he h]
      | panic w => exact ⟨fun x t h' => by simp at h', fun e t he h' => by simp at h'⟩
theorem steady_varIntLoop (n : Nat) (x : U64) : Steady (varIntLoop n x) := by
  induction n generalizing x with
  | zero => exact steady_pure _
  | succ n ih => exact steady_bind (steady_nextOr (by simp [BadContent])) fun _ => ih _
theorem steady_varInt : Steady varIntFromStream :=
  steady_bind (steady_nextOr (by simp [BadContent])) fun _ => steady_varIntLoop _ _
theorem steady_varBytes (n : Nat) : Steady (varBytesFromStream n) := by
  induction n with
  | zero => exact steady_pure _
  | succ n ih => exact steady_bind (steady_nextOr (by simp [BadContent])) fun _ => steady_bind ih fun _ => steady_pure _
theorem steady_readArray {m : String} (h : ¬ BadContent (.internalError m)) (n : Nat) : Steady (readArray m n) := by
  induction n with
  | zero => exact steady_pure _
  | succ n ih => exact steady_bind (steady_nextOr h) fun _ => steady_bind ih fun _ => steady_pure _
theorem steady_lift {x : Out α} : Steady (Rd.lift x) := by
  intro s b
  refine ⟨fun y t h => ?_, fun e' t _ h => ?_⟩ <;>
  · simp only [Rd.lift, Prod.mk.injEq] at h ⊢
    obtain ⟨rfl, rfl⟩ := h; exact ⟨rfl, rfl⟩
theorem steady_u8 : Steady u8FromDatagram :=
  steady_bind (steady_readArray (by simp [BadContent]) _) fun _ => steady_bind steady_lift fun _ => steady_pure _
theorem steady_uint {m : String} (h : ¬ BadContent (.internalError m)) (n : Nat) : Steady (uintFromDatagram n m) :=
  steady_bind (steady_readArray h _) fun _ => steady_bind steady_lift fun _ => steady_pure _
theorem steady_u64 : Steady u64FromDatagram := steady_uint (by simp [BadContent]) 8
theorem steady_u128 : Steady u128FromDatagram := steady_uint (by simp [BadContent]) 16
theorem steady_u160Loop {m : String} (h : ¬ BadContent (.internalError m)) (n : Nat) (x : U32) (y : U128) : Steady (u160Loop m n x y) := by
  induction n generalizing x y with
  | zero => exact steady_pure _
  | succ n ih => exact steady_bind (steady_nextOr h) fun _ => ih _ _
theorem steady_varU160 (n : U8) : Steady (varU160FromStream n) := steady_u160Loop (by simp [BadContent]) _ _ _
theorem steady_ite {c : Prop} [Decidable c] {x y : Rd α} (hx : Steady x) (hy : Steady y) : Steady (if c then x else y) := by
  split <;> assumption
theorem lasting_ite {c : Prop} [Decidable c] {x y : Rd α} (hx : Lasting x) (hy : Lasting y) : Lasting (if c then x else y) := by
  split <;> assumption
theorem steady_ackRange : Steady AckRange.fromDatagram :=
  steady_bind steady_varInt fun _ => steady_bind steady_varInt fun _ => steady_pure _
theorem steady_ackRanges (n : Nat) : Steady (FrameAck.rangesFromDatagram n) := by
  induction n with
  | zero => exact steady_pure _
  | succ n ih => exact steady_bind steady_ackRange fun _ => steady_bind ih fun _ => steady_pure _
theorem steady_ecn : Steady EcnCounts.fromDatagram :=
  steady_bind steady_varInt fun _ => steady_bind steady_varInt fun _ => steady_bind steady_varInt fun _ => steady_pure _
theorem steady_ack (tb : U8) : Steady (FrameAck.fromDatagram tb) :=
  steady_bind steady_varInt fun _ => steady_bind steady_varInt fun _ => steady_bind steady_varInt fun _ =>
  steady_bind steady_varInt fun _ => steady_bind (steady_ackRanges _) fun _ =>
  steady_ite (steady_bind steady_ecn fun _ => steady_bind (steady_pure _) fun _ => steady_pure _)
    (steady_bind (steady_pure _) fun _ => steady_pure _)
theorem steady_newConnectionId : Steady FrameNewConnectionId.fromDatagram :=
  steady_bind steady_varInt fun _ => steady_bind steady_varInt fun _ => steady_bind steady_u8 fun _ =>
  steady_ite (steady_fail _) (steady_bind (steady_varU160 _) fun _ => steady_bind steady_u128 fun _ => steady_pure _)
theorem steady_connectionClose (tb : U8) : Steady (FrameConnectionClose.fromDatagram tb) :=
  steady_bind steady_varInt fun _ =>
  steady_ite
    (steady_bind steady_varInt fun _ => steady_bind (steady_pure _) fun _ =>
      steady_bind steady_varInt fun _ => steady_bind (steady_varBytes _) fun _ => steady_pure _)
    (steady_bind (steady_pure _) fun _ => steady_bind steady_varInt fun _ => steady_bind (steady_varBytes _) fun _ => steady_pure _)
theorem lasting_stream (tb : U8) : Lasting (FrameStream.fromDatagram tb) := by
  rw [stream_fromDatagram_eq]
  exact lasting_bind steady_varInt fun _ => lasting_map lasting_allBytes _
theorem lasting_body (tb : U8) : Lasting (deserializeFrameBody tb) := by
  have v1 {α : Type} (g : U64 → α) : Steady (varIntFromStream >>= fun x => pure (g x) : Rd α) := steady_bind steady_varInt fun _ => steady_pure _
  have k {α : Type} {r : Rd α} (h : Steady r) (g : α → Frame) : Lasting (r >>= fun x => pure (g x)) := lasting_map h.lasting g
  unfold deserializeFrameBody
  dsimp only
  refine lasting_ite (steady_pure _).lasting <| lasting_ite (steady_pure _).lasting <| lasting_ite (k (steady_ack tb) _) <|
    lasting_ite (k (steady_bind steady_varInt fun _ => steady_bind steady_varInt fun _ => v1 _) _) <|
    lasting_ite (k (steady_bind steady_varInt fun _ => v1 _) _) <|
    lasting_ite (k (steady_bind steady_varInt fun _ => steady_bind steady_varInt fun _ => steady_bind (steady_varBytes _) fun _ => steady_pure _) _) <|
    lasting_ite (k (steady_bind steady_varInt fun _ => steady_bind (steady_varBytes _) fun _ => steady_pure _) _) <|
    lasting_ite (lasting_map (lasting_stream tb) _) <|
    lasting_ite (k (v1 _) _) <| lasting_ite (k (steady_bind steady_varInt fun _ => v1 _) _) <| lasting_ite (k (v1 _) _) <|
    lasting_ite (k (v1 _) _) <| lasting_ite (k (steady_bind steady_varInt fun _ => v1 _) _) <| lasting_ite (k (v1 _) _) <|
    lasting_ite (k steady_newConnectionId _) <| lasting_ite (k (v1 _) _) <|
    lasting_ite (k (steady_bind steady_u64 fun _ => steady_pure _) _) <|
    lasting_ite (k (steady_bind steady_u64 fun _ => steady_pure _) _) <|
    lasting_ite (k (steady_connectionClose tb) _) <| lasting_ite (steady_pure _).lasting (steady_fail _).lasting
theorem lasting_frame : Lasting deserializeFrame := lasting_bind steady_varInt fun _ => lasting_body _

/-- C151, over any stream: a payload refused as malformed is refused in the same way whatever follows it. -/
theorem C151_streams (s b : Stream) (e : Error) (he : BadContent e) (h : (deserializeFrames s).1 = .err e) :
    (deserializeFrames (s ++ b)).1 = .err e := by
  generalize hn : s.length = n
  induction n using Nat.strongRecOn generalizing s with
  | _ n ih =>
    by_cases hs : s = []
    · subst hs; rw [frames_nil] at h; simp at h
    have hs' : s ++ b ≠ [] := by simp [hs]
    have hl := lasting_frame s b
    rcases hd : deserializeFrame s with ⟨o, t⟩
    cases o with
    | ok f =>
      rw [frames_cons hs hd] at h
      have h2 : (deserializeFrames t).1 = .err e := by
        rcases hx : (deserializeFrames t).1 with _ | _ | _ <;> rw [hx] at h <;> simp_all [afterFrames]
      rcases hl.1 f t hd with h3 | h3
      · subst h3; rw [frames_nil] at h2; simp at h2
      · have hlt : t.length < n := hn ▸ frame_consumes hd
        rw [frames_cons hs' h3, ih _ hlt t h2 rfl]; rfl
    | err e' =>
      have : e' = e := by
        rw [frames_step s hs, Rd.bind_apply, hd] at h; simpa using h
      subst this
      rw [frames_step _ hs', Rd.bind_apply, hl.2 e' t he hd]
    | panic w => rw [frames_step s hs, Rd.bind_apply, hd] at h; simp at h
/-- C151. -/
theorem C151_all : C151Statement := fun a b e he h => by
  rw [makeResultStream_append]; exact C151_streams _ _ e he h
/-- C151, the other way round: of a payload that is parsed, every beginning is parsed too or only wants bytes; none is refused for what
it contains. -/
theorem C151_beginnings (a b : Bytes) (fs : List Frame) (e : Error) (h : (deserializeFrames (makeResultStream (a ++ b))).1 = .ok fs)
    (ha : (deserializeFrames (makeResultStream a)).1 = .err e) : ¬ BadContent e := fun he => by
  rw [C151_all a b e he ha] at h; simp at h

/-- A case: PING, then a NEW_CONNECTION_ID frame with a connection id of 21 bytes, cut off after the length. -/
example : BadContent (.internalError "invalid connection id length") ∧
    (deserializeFrames (makeResultStream [0x01, 0x18, 0x05, 0x40, 0x02, 21])).1 = .err (.internalError "invalid connection id length") :=
  ⟨.inr rfl, by decide +kernel⟩
/-- A case: PADDING, then the frame type 0x1f. -/
example : BadContent (.internalError "Invalid type byte") ∧
    (deserializeFrames (makeResultStream [0x00, 0x1f])).1 = .err (.internalError "Invalid type byte") := ⟨.inl rfl, by decide +kernel⟩
/-- The condition matters: a MAX_DATA frame cut off is refused, and parsed once the rest follows. -/
example : (deserializeFrames (makeResultStream [0x10, 0x40])).1 = .err (.internalError "not enough bytes for varint") ∧
    (deserializeFrames (makeResultStream ([0x10, 0x40] ++ [0x07, 0x01]))).1 = .ok [.maxData ⟨7⟩, .ping] := by decide +kernel
end QuicSea
