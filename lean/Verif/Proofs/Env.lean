import Verif.Model.Env
import Verif.Props.Local
/-
Comparison of the readers in a given environment (`Verif.Model.Env`) with the readers of a 64-bit machine without output.
-/
namespace QuicSea
open Spec

theorem Pr.pure_apply (a : α) (s : Stream) : (Pure.pure a : Pr α) s = (.ok a, s, []) := rfl
theorem Pr.bind_apply (m : Pr α) (f : α → Pr β) (s : Stream) :
    (m >>= f) s = match m s with
      | (.ok a, s', l) => ((f a s').1, (f a s').2.1, l ++ (f a s').2.2)
      | (.err e, s', l) => (.err e, s', l)
      | (.panic w, s', l) => (.panic w, s', l) := rfl
theorem Pr.bind_silent {m : Pr α} {f : α → Pr β} {s a s'} (h : m s = (.ok a, s', [])) : (m >>= f) s = f a s' := by
  rw [Pr.bind_apply, h]; rfl

theorem Pr.bind_err {m : Pr α} {f : α → Pr β} {s e s' l} (h : m s = (.err e, s', l)) : (m >>= f) s = (.err e, s', l) := by
  rw [Pr.bind_apply, h]
theorem Pr.bind_panic {m : Pr α} {f : α → Pr β} {s e s' l} (h : m s = (.panic e, s', l)) : (m >>= f) s = (.panic e, s', l) := by
  rw [Pr.bind_apply, h]

theorem Pr.on_eq {m : Pr α} {o o' : Stream} {r l} (h : m o = (r, o', l)) {s : Stream} : (m.on o) s = (r, s, l) := by
  unfold Pr.on; rw [h]
theorem Pr.onUnwrap_eq {m : Pr α} {o o' : Stream} {r l} (h : m o = (r, o', l)) {s : Stream} : (m.onUnwrap o) s = (r.unwrap, s, l) := by
  unfold Pr.onUnwrap; rw [h]

/-! ## 64-bit machines -/

/-- On a 64-bit machine: the reader does what the one without output does and prints nothing; or that one does not succeed, and then one line is
printed before the same outcome, or, when it cannot be printed, the reader panics. -/
def Same (m' : Bool → Pr α) (m : Rd α) : Prop := ∀ s,
  (∀ b, m' b s = ((m s).1, (m s).2, [])) ∨
  ((∀ a, (m s).1 ≠ .ok a) ∧ ∃ i s', m' true s = ((m s).1, (m s).2, [i]) ∧ m' false s = (.panic "failed printing to stdout", s', []))

theorem Same.pure (a : α) : Same (fun _ => (Pure.pure a : Pr α)) (Pure.pure a) := fun _ => .inl fun _ => rfl
theorem Same.of (m : Rd α) : Same (fun _ => Pr.of m) m := fun _ => .inl fun _ => rfl
theorem Same.lift (x : Out α) : Same (fun _ => Pr.lift x) (Rd.lift x) := fun _ => .inl fun _ => rfl
theorem Same.fail (e : Error) : Same (fun _ => (Pr.lift (.err e) : Pr α)) (Rd.fail e) := fun _ => .inl fun _ => rfl
theorem Same.cloned : Same (fun _ => Pr.cloned) Rd.cloned := fun _ => .inl fun _ => rfl
theorem Same.ite {c : Prop} [Decidable c] {a' b' : Bool → Pr α} {a b : Rd α} (h1 : Same a' a) (h2 : Same b' b) :
    Same (fun x => if c then a' x else b' x) (if c then a else b) := by
  by_cases h : c
  · simp only [if_pos h]; exact h1
  · simp only [if_neg h]; exact h2
theorem Same.bind {m' : Bool → Pr α} {m : Rd α} {f' : Bool → α → Pr β} {f : α → Rd β} (h1 : Same m' m) (h2 : ∀ a, Same (fun b => f' b a) (f a)) :
    Same (fun b => m' b >>= f' b) (m >>= f) := by
  intro s
  rcases hm : m s with ⟨o, s'⟩
  rcases h1 s with h | ⟨h, i, s1, h3, h4⟩
  · rw [hm] at h
    cases o with
    | ok a =>
      rw [Rd.bind_ok hm]
      rcases h2 a s' with g | ⟨g, i, s1, g3, g4⟩
      · exact .inl fun b => (Pr.bind_silent (h b)).trans (g b)
      · exact .inr ⟨g, i, s1, (Pr.bind_silent (h true)).trans g3, (Pr.bind_silent (h false)).trans g4⟩
    | err e => rw [Rd.bind_err hm]; exact .inl fun b => Pr.bind_err (h b)
    | panic w => rw [Rd.bind_panic hm]; exact .inl fun b => Pr.bind_panic (h b)
  · rw [hm] at h h3
    cases o with
    | ok a => exact absurd rfl (h a)
    | err e => rw [Rd.bind_err hm]; exact .inr ⟨nofun, i, s1, Pr.bind_err h3, Pr.bind_panic h4⟩
    | panic w => rw [Rd.bind_panic hm]; exact .inr ⟨nofun, i, s1, Pr.bind_panic h3, Pr.bind_panic h4⟩
theorem Same.on {m' : Bool → Pr α} {m : Rd α} (h : Same m' m) (o : Stream) : Same (fun b => (m' b).on o) (Rd.lift (m o).1) := by
  intro s
  rcases h o with h | ⟨h, i, s1, h3, h4⟩
  · exact .inl fun b => Pr.on_eq (h b)
  · exact .inr ⟨h, i, s, Pr.on_eq h3, Pr.on_eq h4⟩
theorem Same.onUnwrap {m' : Bool → Pr α} {m : Rd α} (h : Same m' m) (o : Stream) : Same (fun b => (m' b).onUnwrap o) (Rd.lift (m o).1.unwrap) := by
  intro s
  rcases h o with h | ⟨h, i, s1, h3, h4⟩
  · exact .inl fun b => Pr.onUnwrap_eq (h b)
  · refine .inr ⟨?_, i, s, Pr.onUnwrap_eq h3, Pr.onUnwrap_eq h4⟩
    intro a ha
    rw [Rd.lift_apply] at ha
    cases e : (m o).1 with
    | ok x => exact h x e
    | err x => rw [e] at ha; cases ha
    | panic x => rw [e] at ha; cases ha

/-- A 64-bit machine, its standard output writable or not. -/
def m64 (stderr stdout : Bool) : Env := ⟨64, stdout, stderr⟩
theorem usize64 (e b : Bool) (x : U64) : (m64 e b).usize x = x.toNat := Nat.mod_eq_of_lt x.isLt

theorem nextOrPrint_same (e : Bool) (i : Nat) : Same (fun b => nextOrPrint (m64 e b) i) (nextOr "not enough bytes for var_bytes") := by
  intro s
  match s with
  | [] => exact .inr ⟨nofun, i, _, rfl, rfl⟩
  | .ok b :: s' => exact .inl fun _ => rfl
  | .error x :: s' => exact .inr ⟨nofun, i, _, rfl, rfl⟩
theorem varBytesLoop_same (e : Bool) (n : Nat) : ∀ i, Same (fun b => varBytesLoopP (m64 e b) i n) (varBytesFromStream n) := by
  induction n with
  | zero => exact fun i => .pure _
  | succ n ih => exact fun i => (nextOrPrint_same e i).bind fun _ => (ih (i + 1)).bind fun _ => .pure _
theorem varBytes_same (e : Bool) (n : Nat) : Same (fun b => varBytesP (m64 e b) n) (varBytesFromStream n) := varBytesLoop_same e n 0
theorem varBytes_same' (e : Bool) (x : U64) : Same (fun b => varBytesP (m64 e b) ((m64 e b).usize x)) (varBytesFromStream x.toNat) := by
  simp only [usize64]; exact varBytes_same e _

theorem crypto_same (e : Bool) : Same (fun b => FrameCrypto.fromDatagramP (m64 e b)) FrameCrypto.fromDatagram :=
  (Same.of _).bind fun _ => (Same.of _).bind fun _ => (varBytes_same' e _).bind fun _ => .pure _
theorem newToken_same (e : Bool) : Same (fun b => FrameNewToken.fromDatagramP (m64 e b)) FrameNewToken.fromDatagram :=
  (Same.of _).bind fun _ => (varBytes_same' e _).bind fun _ => .pure _
theorem streamP_eq (w : Env) (tb : U8) : FrameStream.fromDatagramP w tb = (do
    let id ← Pr.of varIntFromStream
    let data ← Pr.of allBytesFromStream
    pure ⟨id, 0, BitVec.ofNat 64 data.length, data, decide (tb.toNat % 2 = 1)⟩) := by
  obtain ⟨h1, h2, h3⟩ := stream_flags tb
  unfold FrameStream.fromDatagramP
  simp only [h1, h2, h3]
  rfl
theorem streamF_same (e : Bool) (t : U8) : Same (fun b => FrameStream.fromDatagramP (m64 e b) t) (FrameStream.fromDatagram t) := by
  simp only [streamP_eq, stream_fromDatagram_eq]
  exact (Same.of _).bind fun _ => (Same.of _).bind fun _ => .pure _
theorem close_same (e : Bool) (t : U8) : Same (fun b => FrameConnectionClose.fromDatagramP (m64 e b) t) (FrameConnectionClose.fromDatagram t) := by
  unfold FrameConnectionClose.fromDatagramP FrameConnectionClose.fromDatagram
  cases h : decide (t &&& 0x1 = 1)
  · exact (Same.of _).bind fun _ => (Same.of _).bind fun _ => (Same.of _).bind fun _ => (varBytes_same' e _).bind fun _ => .pure _
  · exact (Same.of _).bind fun _ => (Same.of _).bind fun _ => (varBytes_same' e _).bind fun _ => .pure _
theorem body_close (t : U8) (hc : 0x1c ≤ t.toNat ∧ t.toNat ≤ 0x1d) :
    deserializeFrameBody t = (do let x ← FrameConnectionClose.fromDatagram t; pure (.connectionClose x)) := by
  unfold deserializeFrameBody; dsimp only
  rw [if_neg (by omega), if_neg (by omega), if_neg (by omega), if_neg (by omega), if_neg (by omega), if_neg (by omega), if_neg (by omega), if_neg (by omega),
    if_neg (by omega), if_neg (by omega), if_neg (by omega), if_neg (by omega), if_neg (by omega), if_neg (by omega), if_neg (by omega),
    if_neg (by omega), if_neg (by omega), if_neg (by omega), if_pos hc]
theorem body_same (e : Bool) (t : U8) : Same (fun b => deserializeFrameBodyP (m64 e b) t) (deserializeFrameBody t) := by
  by_cases h6 : t.toNat = 0x06
  · simp only [deserializeFrameBodyP, deserializeFrameBody, h6, if_true]
    exact (crypto_same e).bind fun _ => .pure _
  by_cases h7 : t.toNat = 0x07
  · simp only [deserializeFrameBodyP, deserializeFrameBody, h7, if_true]
    exact (newToken_same e).bind fun _ => .pure _
  by_cases h8 : 0x08 ≤ t.toNat ∧ t.toNat ≤ 0x0f
  · rw [body_stream t h8]
    simp only [deserializeFrameBodyP, if_neg h6, if_neg h7, if_pos h8]
    exact (streamF_same e t).bind fun _ => .pure _
  by_cases hc : 0x1c ≤ t.toNat ∧ t.toNat ≤ 0x1d
  · rw [body_close t hc]
    simp only [deserializeFrameBodyP, if_neg h6, if_neg h7, if_neg h8, if_pos hc]
    exact (close_same e t).bind fun _ => .pure _
  · simp only [deserializeFrameBodyP, if_neg h6, if_neg h7, if_neg h8, if_neg hc]
    exact .of _
theorem frame_same (e : Bool) : Same (fun b => deserializeFrameP (m64 e b)) deserializeFrame := (Same.of _).bind fun _ => body_same e _

/-- One turn of the loop, as a sequence. -/
theorem framesLoop_cons (n : Nat) (x : Except Error U8) (s : Stream) : deserializeFramesLoop (n + 1) (x :: s) = (do
    let f ← deserializeFrame
    let fs ← deserializeFramesLoop n
    pure (f :: fs) : Rd (List Frame)) (x :: s) := by
  rw [deserializeFramesLoop.eq_3 _ _ (by simp), Rd.bind_apply]
  rcases deserializeFrame (x :: s) with ⟨o, s'⟩
  cases o with
  | ok f =>
    dsimp only
    rw [Rd.bind_apply]
    rcases deserializeFramesLoop n s' with ⟨o, s''⟩
    cases o <;> rfl
  | err e => rfl
  | panic w => rfl
theorem packetsLoop_cons (bp : Profile) (c : Connection) (n : Nat) (x : Except Error U8) (s : Stream) : decodePacketsLoop bp c (n + 1) (x :: s) = (do
    let f ← decodeNextPacket bp c
    let fs ← decodePacketsLoop bp c n
    pure (f :: fs) : Rd (List Packet)) (x :: s) := by
  rw [decodePacketsLoop.eq_3 _ _ _ _ (by simp), Rd.bind_apply]
  rcases decodeNextPacket bp c (x :: s) with ⟨o, s'⟩
  cases o with
  | ok f =>
    dsimp only
    rw [Rd.bind_apply]
    rcases decodePacketsLoop bp c n s' with ⟨o, s''⟩
    cases o <;> rfl
  | err e => rfl
  | panic w => rfl
theorem framesLoop_same (e : Bool) : ∀ n, Same (fun b => deserializeFramesLoopP (m64 e b) n) (deserializeFramesLoop n) := by
  intro n
  induction n with
  | zero =>
    intro s
    cases s with
    | nil => exact .inl fun _ => rfl
    | cons x s => exact .inl fun _ => rfl
  | succ n ih =>
    intro s
    cases s with
    | nil => exact .inl fun _ => rfl
    | cons x s =>
      have h := Same.bind (frame_same e) (fun f => Same.bind ih fun fs => Same.pure (f :: fs)) (x :: s)
      rw [← framesLoop_cons] at h
      exact h
theorem frames_same (e : Bool) : Same (fun b => deserializeFramesP (m64 e b)) deserializeFrames := fun s => framesLoop_same e _ s

theorem mask_same (e : Bool) (x : Secrets) : Same (fun b => x.getHeaderProtectionMaskP (m64 e b)) x.getHeaderProtectionMask :=
  (varBytes_same e _).bind fun _ => .lift _
theorem remoteMask_same (e : Bool) (c : Connection) (sp : PnSpace) : Same (fun b => c.getRemoteHpMaskP (m64 e b) sp) (c.getRemoteHpMask sp) :=
  (Same.lift _).bind fun x => mask_same e x
theorem localMask_same (e : Bool) (c : Connection) (sp : PnSpace) : Same (fun b => c.getLocalHpMaskP (m64 e b) sp) (c.getLocalHpMask sp) :=
  (Same.lift _).bind fun x => mask_same e x
theorem long_same (e : Bool) (hb : U8) : Same (fun b => LongPacketHeader.fromStreamP (m64 e b) hb) (LongPacketHeader.fromStream hb) := by
  unfold LongPacketHeader.fromStreamP LongPacketHeader.fromStream
  refine (Same.of _).bind fun v => Same.bind ?_ fun _ => (Same.lift _).bind fun _ => .pure _
  refine Same.ite ?_ ?_
  · exact (Same.of _).bind fun _ => .ite (.fail _) ((Same.of _).bind fun _ => (Same.of _).bind fun _ => .ite (.fail _) ((Same.of _).bind fun _ => .pure _))
  · exact (Same.of _).bind fun _ => (varBytes_same e _).bind fun _ => (Same.of _).bind fun _ => (varBytes_same e _).bind fun _ => .pure _
theorem header_same (e : Bool) : Same (fun b => nextHeaderFromStreamP (m64 e b)) nextHeaderFromStream :=
  (Same.of _).bind fun _ => .ite ((long_same e _).bind fun _ => .pure _) ((Same.of _).bind fun _ => .pure _)
theorem vn_same (e : Bool) : Same (fun b => PacketVersionNegotiation.fromStreamP (m64 e b)) PacketVersionNegotiation.fromStream :=
  (Same.of _).bind fun _ => (long_same e _).bind fun _ => (Same.of _).bind fun _ => .ite (.fail _) ((Same.lift _).bind fun _ => .pure _)
theorem sub_same (e : Bool) (bp : Profile) (L : U64) (n : Nat) : Same (fun b => Pr.lift ((m64 e b).sub bp ((m64 e b).usize L) n)) (Rd.lift (subUsize bp L.toNat n)) := by
  simp only [usize64]; exact Same.lift (subUsize bp L.toNat n)
theorem initial_same (e : Bool) (bp : Profile) (c : Connection) : Same (fun b => PacketInitial.fromStreamP (m64 e b) bp c) (PacketInitial.fromStream bp c) :=
  (Same.of _).bind fun _ => (long_same e _).bind fun _ => (Same.of _).bind fun _ => (varBytes_same' e _).bind fun _ => (Same.of _).bind fun _ =>
    (varBytes_same e _).bind fun _ => Same.cloned.bind fun o => ((remoteMask_same e c _).on o).bind fun _ => (Same.lift _).bind fun _ =>
    (Same.lift _).bind fun _ => (Same.lift _).bind fun _ => (Same.lift _).bind fun _ => (sub_same e bp _ _).bind fun _ => (varBytes_same e _).bind fun _ =>
    (Same.lift _).bind fun _ => (Same.lift _).bind fun _ => ((frames_same e).on _).bind fun _ => .pure _
theorem zeroRtt_same (e : Bool) (bp : Profile) (c : Connection) : Same (fun b => PacketZeroRtt.fromStreamP (m64 e b) bp c) (PacketZeroRtt.fromStream bp c) :=
  (Same.of _).bind fun _ => (long_same e _).bind fun _ => (Same.of _).bind fun _ =>
    (varBytes_same e _).bind fun _ => Same.cloned.bind fun o => ((remoteMask_same e c _).on o).bind fun _ => (Same.lift _).bind fun _ =>
    (Same.lift _).bind fun _ => (Same.lift _).bind fun _ => (Same.lift _).bind fun _ => (sub_same e bp _ _).bind fun _ => (varBytes_same e _).bind fun _ =>
    (Same.lift _).bind fun _ => (Same.lift _).bind fun _ => (Same.lift _).bind fun _ => ((frames_same e).on _).bind fun _ => .pure _
theorem handshake_same (e : Bool) (bp : Profile) (c : Connection) : Same (fun b => PacketHandshake.fromStreamP (m64 e b) bp c) (PacketHandshake.fromStream bp c) :=
  (Same.of _).bind fun _ => (long_same e _).bind fun _ => (Same.of _).bind fun _ =>
    (varBytes_same e _).bind fun _ => Same.cloned.bind fun o => ((remoteMask_same e c _).on o).bind fun _ => (Same.lift _).bind fun _ =>
    (Same.lift _).bind fun _ => (Same.lift _).bind fun _ => (Same.lift _).bind fun _ => (sub_same e bp _ _).bind fun _ => (varBytes_same e _).bind fun _ =>
    (Same.lift _).bind fun _ => (Same.lift _).bind fun _ => ((frames_same e).on _).bind fun _ => .pure _
theorem oneRtt_same (e : Bool) (bp : Profile) (c : Connection) : Same (fun b => PacketOneRtt.fromStreamP (m64 e b) bp c) (PacketOneRtt.fromStream bp c) :=
  (Same.of _).bind fun _ => (Same.of _).bind fun _ =>
    (varBytes_same e _).bind fun _ => Same.cloned.bind fun o => ((remoteMask_same e c _).on o).bind fun _ => (Same.lift _).bind fun _ =>
    (Same.lift _).bind fun _ => (Same.lift _).bind fun _ => (Same.lift _).bind fun _ => (Same.of _).bind fun _ =>
    (Same.lift _).bind fun _ => (Same.lift _).bind fun _ => ((frames_same e).on _).bind fun _ => .pure _
theorem decodeNext_same (e : Bool) (bp : Profile) (c : Connection) : Same (fun b => decodeNextPacketP (m64 e b) bp c) (decodeNextPacket bp c) := by
  unfold decodeNextPacketP decodeNextPacket
  refine Same.cloned.bind fun o => ((header_same e).onUnwrap o).bind fun h => ?_
  cases h with
  | short h => exact (oneRtt_same e bp c).bind fun _ => .pure _
  | long h =>
    refine (Same.lift _).bind fun t => ?_
    cases t with
    | handshake => exact (handshake_same e bp c).bind fun _ => .pure _
    | initial => exact (initial_same e bp c).bind fun _ => .pure _
    | zeroRtt => exact (zeroRtt_same e bp c).bind fun _ => .pure _
    | retry => exact (Same.of _).bind fun _ => .pure _
    | versionNegotiation => exact (vn_same e).bind fun _ => .pure _
    | oneRtt => exact .lift _
    | statelessReset => exact .lift _
theorem packetsLoop_same (e : Bool) (bp : Profile) (c : Connection) : ∀ n, Same (fun b => decodePacketsLoopP (m64 e b) bp c n) (decodePacketsLoop bp c n) := by
  intro n
  induction n with
  | zero =>
    intro s
    cases s with
    | nil => exact .inl fun _ => rfl
    | cons x s => exact .inl fun _ => rfl
  | succ n ih =>
    intro s
    cases s with
    | nil => exact .inl fun _ => rfl
    | cons x s =>
      have h := Same.bind (decodeNext_same e bp c) (fun f => Same.bind ih fun fs => Same.pure (f :: fs)) (x :: s)
      rw [← packetsLoop_cons] at h
      exact h
theorem packets_same (e : Bool) (bp : Profile) (c : Connection) : Same (fun b => decodePacketsP (m64 e b) bp c) (decodePackets bp c) :=
  fun s => packetsLoop_same e bp c _ s
theorem lift_bind (x : Out α) (f : α → Out β) : Rd.lift (x >>= f) = (Rd.lift x >>= fun a => Rd.lift (f a) : Rd β) := by
  cases x <;> rfl
theorem Same.outBind {m' : Bool → Pr α} {x : Out α} {f' : Bool → α → Pr β} {f : α → Out β} (h1 : Same m' (Rd.lift x)) (h2 : ∀ a, Same (fun b => f' b a) (Rd.lift (f a))) :
    Same (fun b => m' b >>= f' b) (Rd.lift (x >>= f)) := by
  rw [lift_bind]; exact h1.bind h2
theorem initialBytes_same (e : Bool) (p : PacketInitial) (c : Connection) : Same (fun b => p.serializeP (m64 e b) c) (Rd.lift (p.serialize c)) :=
  (Same.lift _).outBind fun _ => (Same.lift _).outBind fun _ => (Same.lift _).outBind fun _ => (Same.lift _).outBind fun _ => (Same.lift _).outBind fun _ =>
    (Same.lift _).outBind fun _ => (Same.lift _).outBind fun _ => (Same.lift _).outBind fun _ => ((localMask_same e c _).on _).outBind fun _ =>
    (Same.lift _).outBind fun _ => (Same.lift _).outBind fun _ => .lift _
theorem handshakeBytes_same (e : Bool) (p : PacketHandshake) (c : Connection) : Same (fun b => p.serializeP (m64 e b) c) (Rd.lift (p.serialize c)) :=
  (Same.lift _).outBind fun _ => (Same.lift _).outBind fun _ => (Same.lift _).outBind fun _ => (Same.lift _).outBind fun _ =>
    (Same.lift _).outBind fun _ => (Same.lift _).outBind fun _ => (Same.lift _).outBind fun _ => ((localMask_same e c _).on _).outBind fun _ =>
    (Same.lift _).outBind fun _ => (Same.lift _).outBind fun _ => .lift _

/-! ## Other machines -/

/-- What a 64-bit machine reads from a stream that fits in the address space, the machine `w` reads as well, and prints nothing. -/
def Grow (w : Env) (m' : Pr α) (m : Rd α) : Prop := ∀ s a s', s.length + 4 < 2 ^ w.ptr → m s = (.ok a, s') →
  m' s = (.ok a, s', []) ∧ s'.length ≤ s.length

theorem Grow.pure (w : Env) (a : α) : Grow w (Pure.pure a) (Pure.pure a) := by
  intro s b s' _ h; cases h; exact ⟨rfl, Nat.le_refl _⟩
theorem Grow.lift (w : Env) (x : Out α) : Grow w (Pr.lift x) (Rd.lift x) := by
  intro s b s' _ h
  rw [Rd.lift_apply] at h
  injection h with h1 h2
  subst h1 h2; exact ⟨rfl, Nat.le_refl _⟩
theorem Grow.of {m : Rd α} (w : Env) (hm : Shrinks m) : Grow w (Pr.of m) m := by
  intro s b s' _ h
  exact ⟨by unfold Pr.of; rw [h], by have := (hm s).length_le; rw [h] at this; exact this⟩
theorem Grow.fail (w : Env) (m' : Pr α) (e : Error) : Grow w m' (Rd.fail e) := by
  intro s b s' _ h; cases h
theorem Grow.ite {c : Prop} [Decidable c] {w : Env} {a' b' : Pr α} {a b : Rd α} (h1 : Grow w a' a) (h2 : Grow w b' b) :
    Grow w (if c then a' else b') (if c then a else b) := by
  by_cases h : c
  · simp only [if_pos h]; exact h1
  · simp only [if_neg h]; exact h2
/-- Sequencing; of the first result it may be used that it was read from a stream that fits. -/
theorem Grow.bind {w : Env} {m' : Pr α} {m : Rd α} {f' : α → Pr β} {f : α → Rd β} (h1 : Grow w m' m)
    (h2 : ∀ a s s', s.length + 4 < 2 ^ w.ptr → m s = (.ok a, s') → Grow w (f' a) (f a)) : Grow w (m' >>= f') (m >>= f) := by
  intro s b s' hs h
  obtain ⟨a, s1, hm, hf⟩ := Rd.bind_eq_ok h
  obtain ⟨g1, g2⟩ := h1 s a s1 hs hm
  obtain ⟨g3, g4⟩ := h2 a s s1 hs hm s1 b s' (by omega) hf
  exact ⟨(Pr.bind_silent g1).trans g3, by omega⟩
theorem Grow.seq {w : Env} {m' : Pr α} {m : Rd α} {f' : α → Pr β} {f : α → Rd β} (h1 : Grow w m' m)
    (h2 : ∀ a, Grow w (f' a) (f a)) : Grow w (m' >>= f') (m >>= f) := h1.bind fun a _ _ _ _ => h2 a
/-- Run on another stream that fits. -/
theorem Grow.on {w : Env} {m' : Pr α} {m : Rd α} (h : Grow w m' m) {o : Stream} (ho : o.length + 4 < 2 ^ w.ptr) : Grow w (m'.on o) (Rd.lift (m o).1) := by
  intro s a s' hs hm
  rw [Rd.lift_apply] at hm
  injection hm with h1 h2
  subst h2
  obtain ⟨g1, _⟩ := h o a (m o).2 ho (by rw [← h1])
  exact ⟨Pr.on_eq g1, Nat.le_refl _⟩
theorem Grow.onUnwrap {w : Env} {m' : Pr α} {m : Rd α} (h : Grow w m' m) {o : Stream} (ho : o.length + 4 < 2 ^ w.ptr) :
    Grow w (m'.onUnwrap o) (Rd.lift (m o).1.unwrap) := by
  intro s a s' hs hm
  rw [Rd.lift_apply] at hm
  injection hm with h1 h2
  subst h2
  have e : (m o).1 = .ok a := by
    cases e : (m o).1 with
    | ok x => rw [e] at h1; exact h1
    | err x => rw [e] at h1; cases h1
    | panic x => rw [e] at h1; cases h1
  obtain ⟨g1, _⟩ := h o a (m o).2 ho (by rw [← e])
  exact ⟨Pr.onUnwrap_eq g1, Nat.le_refl _⟩
/-- A copy of the stream. -/
theorem Grow.copy {w : Env} {f' : Stream → Pr β} {f : Stream → Rd β} (h : ∀ o : Stream, o.length + 4 < 2 ^ w.ptr → Grow w (f' o) (f o)) :
    Grow w (Pr.cloned >>= f') (Rd.cloned >>= f) := by
  intro s b s' hs hm
  rw [Rd.bind_ok (Rd.cloned_apply s)] at hm
  exact h s hs s b s' hs hm

theorem nextOrPrint_grow (w : Env) (i : Nat) : Grow w (nextOrPrint w i) (nextOr "not enough bytes for var_bytes") := by
  intro s a s' hs h
  match s, h with
  | .ok b :: t, h =>
    cases h; exact ⟨rfl, by simp⟩
theorem varBytesLoop_grow (w : Env) (n : Nat) : ∀ i, Grow w (varBytesLoopP w i n) (varBytesFromStream n) := by
  induction n with
  | zero => exact fun i => .pure _ _
  | succ n ih => exact fun i => (nextOrPrint_grow w i).seq fun _ => (ih (i + 1)).seq fun _ => .pure _ _
theorem varBytes_grow (w : Env) (n : Nat) : Grow w (varBytesP w n) (varBytesFromStream n) := varBytesLoop_grow w n 0
theorem varBytes_fits {n : Nat} {s a s'} (h : varBytesFromStream n s = (.ok a, s')) : a.length = n ∧ n ≤ s.length := by
  obtain ⟨bs, rfl, rfl, h⟩ := varBytes_sound n _ _ _ h
  exact ⟨h, by simp [makeResultStream]; omega⟩
theorem usize_fits {w : Env} {x : U64} (h : x.toNat < 2 ^ w.ptr) : w.usize x = x.toNat := Nat.mod_eq_of_lt h
theorem varBytes_grow' (w : Env) (x : U64) : Grow w (varBytesP w (w.usize x)) (varBytesFromStream x.toNat) := by
  intro s a s' hs h
  have := (varBytes_fits h).2
  rw [usize_fits (by omega)]
  exact varBytes_grow w _ s a s' hs h
/-- The payload of a packet whose length field is `L`, its packet number being `n` bytes long. -/
theorem sub_grow {w : Env} (hw : w.ptr ≤ 64) {bp : Profile} {L : U64} {n : Nat} (hn : n ≤ 4) {f' : Bytes → Pr β} {f : Bytes → Rd β}
    (h : ∀ d : Bytes, d.length + 4 < 2 ^ w.ptr → Grow w (f' d) (f d)) :
    Grow w (Pr.lift (w.sub bp (w.usize L) n) >>= fun k => varBytesP w k >>= f') (Rd.lift (subUsize bp L.toNat n) >>= fun k => varBytesFromStream k >>= f) := by
  intro s b s' hs hm
  obtain ⟨k, s1, h1, h2⟩ := Rd.bind_eq_ok hm
  rw [Rd.lift_apply] at h1
  injection h1 with h1 hs1
  subst hs1
  obtain ⟨d, s2, h3, h4⟩ := Rd.bind_eq_ok h2
  obtain ⟨hd, hk⟩ := varBytes_fits h3
  have hsub : w.sub bp (w.usize L) n = .ok k := by
    unfold subUsize at h1
    by_cases hL : n ≤ L.toNat
    · rw [if_pos hL] at h1
      injection h1 with h1
      rw [usize_fits (by omega)]
      unfold Env.sub
      rw [if_pos hL, h1]
    · rw [if_neg hL] at h1
      cases bp with
      | debug => cases h1
      | release =>
        injection h1 with h1
        rcases Nat.lt_or_ge w.ptr 64 with h64 | h64
        · have : 2 ^ w.ptr ≤ 2 ^ 63 := Nat.pow_le_pow_right (by decide) (by omega)
          omega
        · have e : w.ptr = 64 := by omega
          rw [usize_fits (by rw [e]; exact L.isLt)]
          unfold Env.sub
          rw [if_neg hL, e, ← h1]
  rw [Pr.bind_silent (show Pr.lift (w.sub bp (w.usize L) n) s = (.ok k, s, []) by rw [hsub]; rfl)]
  exact ((varBytes_grow w k).bind fun d s s' hs hd => h d (by have := varBytes_fits hd; omega)) s b s' hs h2

theorem crypto_grow (w : Env) : Grow w (FrameCrypto.fromDatagramP w) FrameCrypto.fromDatagram :=
  (Grow.of w varInt_shrinks).seq fun _ => (Grow.of w varInt_shrinks).seq fun _ => (varBytes_grow' w _).seq fun _ => .pure _ _
theorem newToken_grow (w : Env) : Grow w (FrameNewToken.fromDatagramP w) FrameNewToken.fromDatagram :=
  (Grow.of w varInt_shrinks).seq fun _ => (varBytes_grow' w _).seq fun _ => .pure _ _
theorem streamF_grow (w : Env) (t : U8) : Grow w (FrameStream.fromDatagramP w t) (FrameStream.fromDatagram t) := by
  rw [streamP_eq, stream_fromDatagram_eq]
  exact (Grow.of w varInt_shrinks).seq fun _ => (Grow.of w allBytes_shrinks).seq fun _ => .pure _ _
theorem close_grow (w : Env) (t : U8) : Grow w (FrameConnectionClose.fromDatagramP w t) (FrameConnectionClose.fromDatagram t) := by
  unfold FrameConnectionClose.fromDatagramP FrameConnectionClose.fromDatagram
  cases h : decide (t &&& 0x1 = 1)
  · exact (Grow.of w varInt_shrinks).seq fun _ => (Grow.of w varInt_shrinks).seq fun _ => (Grow.of w varInt_shrinks).seq fun _ =>
      (varBytes_grow' w _).seq fun _ => .pure _ _
  · exact (Grow.of w varInt_shrinks).seq fun _ => (Grow.of w varInt_shrinks).seq fun _ => (varBytes_grow' w _).seq fun _ => .pure _ _
theorem body_grow (w : Env) (t : U8) : Grow w (deserializeFrameBodyP w t) (deserializeFrameBody t) := by
  by_cases h6 : t.toNat = 0x06
  · simp only [deserializeFrameBodyP, deserializeFrameBody, h6, if_true]
    exact (crypto_grow w).seq fun _ => .pure _ _
  by_cases h7 : t.toNat = 0x07
  · simp only [deserializeFrameBodyP, deserializeFrameBody, h7, if_true]
    exact (newToken_grow w).seq fun _ => .pure _ _
  by_cases h8 : 0x08 ≤ t.toNat ∧ t.toNat ≤ 0x0f
  · rw [body_stream t h8]
    simp only [deserializeFrameBodyP, if_neg h6, if_neg h7, if_pos h8]
    exact (streamF_grow w t).seq fun _ => .pure _ _
  by_cases hc : 0x1c ≤ t.toNat ∧ t.toNat ≤ 0x1d
  · rw [body_close t hc]
    simp only [deserializeFrameBodyP, if_neg h6, if_neg h7, if_neg h8, if_pos hc]
    exact (close_grow w t).seq fun _ => .pure _ _
  · simp only [deserializeFrameBodyP, if_neg h6, if_neg h7, if_neg h8, if_neg hc]
    exact .of w (body_shrinks t)
theorem frame_grow (w : Env) : Grow w (deserializeFrameP w) deserializeFrame := (Grow.of w varInt_shrinks).seq fun _ => body_grow w _
theorem framesLoop_grow (w : Env) : ∀ n, Grow w (deserializeFramesLoopP w n) (deserializeFramesLoop n) := by
  intro n
  induction n with
  | zero =>
    intro s a s' hs h
    cases s with
    | nil => cases h; exact ⟨rfl, Nat.le_refl _⟩
    | cons x s => cases h
  | succ n ih =>
    intro s a s' hs h
    cases s with
    | nil => cases h; exact ⟨rfl, Nat.le_refl _⟩
    | cons x s =>
      rw [framesLoop_cons] at h
      exact Grow.seq (frame_grow w) (fun f => Grow.seq ih fun fs => Grow.pure w (f :: fs)) (x :: s) a s' hs h
theorem frames_grow (w : Env) : Grow w (deserializeFramesP w) deserializeFrames := fun s => framesLoop_grow w _ s


theorem mask_grow (w : Env) (x : Secrets) : Grow w (x.getHeaderProtectionMaskP w) x.getHeaderProtectionMask :=
  (varBytes_grow w _).seq fun _ => .lift _ _
theorem remoteMask_grow (w : Env) (c : Connection) (sp : PnSpace) : Grow w (c.getRemoteHpMaskP w sp) (c.getRemoteHpMask sp) :=
  (Grow.lift w _).seq fun x => mask_grow w x
theorem long_grow (w : Env) (hb : U8) : Grow w (LongPacketHeader.fromStreamP w hb) (LongPacketHeader.fromStream hb) := by
  unfold LongPacketHeader.fromStreamP LongPacketHeader.fromStream
  refine (Grow.of w (uint_shrinks _ _)).seq fun v => Grow.seq ?_ fun _ => (Grow.lift w _).seq fun _ => .pure w _
  refine Grow.ite ?_ ?_
  · exact (Grow.of w u8_shrinks).seq fun _ => .ite (.fail w _ _) ((Grow.of w (cid_shrinks _)).seq fun _ => (Grow.of w u8_shrinks).seq fun _ =>
      .ite (.fail w _ _) ((Grow.of w (cid_shrinks _)).seq fun _ => .pure w _))
  · exact (Grow.of w u8_shrinks).seq fun _ => (varBytes_grow w _).seq fun _ => (Grow.of w u8_shrinks).seq fun _ => (varBytes_grow w _).seq fun _ => .pure w _
theorem header_grow (w : Env) : Grow w (nextHeaderFromStreamP w) nextHeaderFromStream :=
  (Grow.of w (nextOr_shrinks _)).seq fun _ => .ite ((long_grow w _).seq fun _ => .pure w _) ((Grow.of w (short_shrinks _)).seq fun _ => .pure w _)
theorem vn_grow (w : Env) : Grow w (PacketVersionNegotiation.fromStreamP w) PacketVersionNegotiation.fromStream :=
  (Grow.of w u8_shrinks).seq fun _ => (long_grow w _).seq fun _ => (Grow.of w allBytes_shrinks).seq fun _ => .ite (.fail w _ _) ((Grow.lift w _).seq fun _ => .pure w _)

/-- A decrypted payload is no longer than the encrypted one. -/
theorem decrypt_fits {P : Prims} (hP : PrimLaws P) {c : Connection} {sp : PnSpace} (hk : KeysOrNone P c sp) {data ad pl : Bytes} {pn : U64}
    (h : c.decryptRemotePayload sp data ad pn = .ok pl) : pl.length ≤ data.length := by
  rcases hk with ⟨k, hk⟩ | ⟨e, hk⟩
  · rw [decrypt_eq hk] at h
    obtain ⟨ct, tag, rfl, ht, ho⟩ := internalDecrypt_ok.mp h
    have := hP.seal_length _ _ _ _ _ _ (hP.seal_open _ _ _ _ _ _ ht ho)
    rw [List.length_append]; omega
  · unfold Connection.decryptRemotePayload at h
    rw [hk] at h; cases h
/-- The frames of a packet whose protected payload fits. -/
theorem payload_grow {P : Prims} (hP : PrimLaws P) {w : Env} {c : Connection} {sp : PnSpace} (hk : KeysOrNone P c sp) {data ad : Bytes} {pn : U64}
    (hd : data.length + 4 < 2 ^ w.ptr) {f' : List Frame → Pr β} {f : List Frame → Rd β} (hf : ∀ fs, Grow w (f' fs) (f fs)) :
    Grow w (Pr.lift (c.decryptRemotePayload sp data ad pn) >>= fun pl => (deserializeFramesP w).on (makeResultStream pl) >>= f')
      (Rd.lift (c.decryptRemotePayload sp data ad pn) >>= fun pl => Rd.lift (deserializeFrames (makeResultStream pl)).1 >>= f) := by
  refine (Grow.lift w _).bind fun pl s s' _ h => ((frames_grow w).on ?_).seq hf
  rw [Rd.lift_apply] at h
  injection h with h
  have := decrypt_fits hP hk h
  simp [makeResultStream]; omega
theorem pnLength_fits {h : LongPacketHeader} {n : Nat} (e : h.packetNumberLength = .ok n) : n ≤ 4 := by
  have := pnLength_eq.mp e; omega
theorem lift_ok {x : Out α} {a : α} {s s' : Stream} (h : Rd.lift x s = (.ok a, s')) : x = .ok a := by
  rw [Rd.lift_apply] at h; injection h

theorem initial_grow {P : Prims} (hP : PrimLaws P) {w : Env} (hw : w.ptr ≤ 64) (bp : Profile) {c : Connection} (hk : KeysOrNone P c .initial) :
    Grow w (PacketInitial.fromStreamP w bp c) (PacketInitial.fromStream bp c) :=
  (Grow.of w u8_shrinks).seq fun _ => (long_grow w _).seq fun _ => (Grow.of w varIntWithBytes_shrinks).seq fun _ => (varBytes_grow' w _).seq fun _ =>
    (Grow.of w varIntWithBytes_shrinks).seq fun _ => (varBytes_grow w _).seq fun _ => Grow.copy fun _ ho => ((remoteMask_grow w c _).on ho).seq fun _ =>
    (Grow.lift w _).bind fun _ _ _ _ hn => (Grow.lift w _).seq fun _ => (Grow.lift w _).seq fun _ => (Grow.lift w _).seq fun _ =>
    sub_grow hw (pnLength_fits (lift_ok hn)) fun _ hd => (Grow.lift w _).seq fun _ => payload_grow hP hk hd fun _ => .pure w _
theorem handshake_grow {P : Prims} (hP : PrimLaws P) {w : Env} (hw : w.ptr ≤ 64) (bp : Profile) {c : Connection} (hk : KeysOrNone P c .handshake) :
    Grow w (PacketHandshake.fromStreamP w bp c) (PacketHandshake.fromStream bp c) :=
  (Grow.of w u8_shrinks).seq fun _ => (long_grow w _).seq fun _ =>
    (Grow.of w varIntWithBytes_shrinks).seq fun _ => (varBytes_grow w _).seq fun _ => Grow.copy fun _ ho => ((remoteMask_grow w c _).on ho).seq fun _ =>
    (Grow.lift w _).bind fun _ _ _ _ hn => (Grow.lift w _).seq fun _ => (Grow.lift w _).seq fun _ => (Grow.lift w _).seq fun _ =>
    sub_grow hw (pnLength_fits (lift_ok hn)) fun _ hd => (Grow.lift w _).seq fun _ => payload_grow hP hk hd fun _ => .pure w _
theorem zeroRtt_grow {P : Prims} (hP : PrimLaws P) {w : Env} (hw : w.ptr ≤ 64) (bp : Profile) {c : Connection} (hk : KeysOrNone P c .application) :
    Grow w (PacketZeroRtt.fromStreamP w bp c) (PacketZeroRtt.fromStream bp c) :=
  (Grow.of w u8_shrinks).seq fun _ => (long_grow w _).seq fun _ =>
    (Grow.of w varIntWithBytes_shrinks).seq fun _ => (varBytes_grow w _).seq fun _ => Grow.copy fun _ ho => ((remoteMask_grow w c _).on ho).seq fun _ =>
    (Grow.lift w _).bind fun _ _ _ _ hn => (Grow.lift w _).seq fun _ => (Grow.lift w _).seq fun _ => (Grow.lift w _).seq fun _ =>
    sub_grow hw (pnLength_fits (lift_ok hn)) fun _ hd => (Grow.lift w _).seq fun _ => (Grow.lift w _).seq fun _ => payload_grow hP hk hd fun _ => .pure w _
theorem oneRtt_grow {P : Prims} (hP : PrimLaws P) {w : Env} (bp : Profile) {c : Connection} (hk : KeysOrNone P c .application) :
    Grow w (PacketOneRtt.fromStreamP w bp c) (PacketOneRtt.fromStream bp c) :=
  (Grow.of w u8_shrinks).seq fun _ => (Grow.of w (short_shrinks _)).seq fun _ => (varBytes_grow w _).seq fun _ => Grow.copy fun _ ho =>
    ((remoteMask_grow w c _).on ho).seq fun _ =>
    (Grow.lift w _).seq fun _ => (Grow.lift w _).seq fun _ => (Grow.lift w _).seq fun _ => (Grow.lift w _).seq fun _ =>
    (Grow.of w allBytes_shrinks).bind fun d s s' hs hd => (Grow.lift w _).seq fun _ =>
    payload_grow hP hk (by obtain ⟨bs, rfl, rfl⟩ := allBytes_sound _ _ _ hd; simp [makeResultStream] at hs; omega) fun _ => .pure w _
theorem decodeNext_grow {P : Prims} (hP : PrimLaws P) {w : Env} (hw : w.ptr ≤ 64) (bp : Profile) {c : Connection} (hk : ∀ sp, KeysOrNone P c sp) :
    Grow w (decodeNextPacketP w bp c) (decodeNextPacket bp c) := by
  unfold decodeNextPacketP decodeNextPacket
  refine Grow.copy fun o ho => ((header_grow w).onUnwrap ho).seq fun h => ?_
  cases h with
  | short h => exact (oneRtt_grow hP bp (hk _)).seq fun _ => .pure w _
  | long h =>
    refine (Grow.lift w _).seq fun t => ?_
    cases t with
    | handshake => exact (handshake_grow hP hw bp (hk _)).seq fun _ => .pure w _
    | initial => exact (initial_grow hP hw bp (hk _)).seq fun _ => .pure w _
    | zeroRtt => exact (zeroRtt_grow hP hw bp (hk _)).seq fun _ => .pure w _
    | retry => exact Grow.seq (fun s a s' _ h => by cases h) fun _ => .pure w _
    | versionNegotiation => exact (vn_grow w).seq fun _ => .pure w _
    | oneRtt => exact .lift w _
    | statelessReset => exact .lift w _
theorem packetsLoop_grow {P : Prims} (hP : PrimLaws P) {w : Env} (hw : w.ptr ≤ 64) (bp : Profile) {c : Connection} (hk : ∀ sp, KeysOrNone P c sp) :
    ∀ n, Grow w (decodePacketsLoopP w bp c n) (decodePacketsLoop bp c n) := by
  intro n
  induction n with
  | zero =>
    intro s a s' hs h
    cases s with
    | nil => cases h; exact ⟨rfl, Nat.le_refl _⟩
    | cons x s => cases h
  | succ n ih =>
    intro s a s' hs h
    cases s with
    | nil => cases h; exact ⟨rfl, Nat.le_refl _⟩
    | cons x s =>
      rw [packetsLoop_cons] at h
      exact Grow.seq (decodeNext_grow hP hw bp hk) (fun f => Grow.seq ih fun fs => Grow.pure w (f :: fs)) (x :: s) a s' hs h
theorem packets_grow {P : Prims} (hP : PrimLaws P) {w : Env} (hw : w.ptr ≤ 64) (bp : Profile) {c : Connection} (hk : ∀ sp, KeysOrNone P c sp) :
    Grow w (decodePacketsP w bp c) (decodePackets bp c) := fun s => packetsLoop_grow hP hw bp hk _ s

end QuicSea
