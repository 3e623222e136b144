import Verif.Model.WorkOut
import Verif.Proofs.Work
import Verif.Proofs.Build
/-
What the counting writers of `Verif.Model.WorkOut` give and how much work they do.
-/
namespace QuicSea
open Spec

/-- With `n` done before, `t` gives the outcome `m`; the work, `n` with it, is at most `a`, and with a result `x` it satisfies `R x`. -/
def Wr (n : Nat) (t : Tw α) (m : Out α) (a : Nat) (R : α → Nat → Prop) : Prop := t.1 = m ∧ n + t.2 ≤ a ∧ ∀ x, m = .ok x → R x (n + t.2)

theorem Tw.bind_ok {t : Tw α} {f : α → Tw β} {x : α} (h : t.1 = .ok x) : (t >>= f) = ((f x).1, t.2 + (f x).2) := by
  obtain ⟨o, n⟩ := t
  cases h
  rfl
theorem Tw.bind_err {t : Tw α} {f : α → Tw β} {e : Error} (h : t.1 = .err e) : (t >>= f) = (.err e, t.2) := by
  obtain ⟨o, n⟩ := t
  cases h
  rfl
theorem Tw.bind_panic {t : Tw α} {f : α → Tw β} {w : String} (h : t.1 = .panic w) : (t >>= f) = (.panic w, t.2) := by
  obtain ⟨o, n⟩ := t
  cases h
  rfl

theorem Tw.bind_assoc (t : Tw α) (f : α → Tw β) (g : β → Tw γ) : (t >>= f) >>= g = t >>= fun x => f x >>= g := by
  obtain ⟨o, n⟩ := t
  cases o with
  | ok x =>
    show Tw.bind ((f x).1, n + (f x).2) g = ((Tw.bind (f x) g).1, n + (Tw.bind (f x) g).2)
    obtain ⟨o', n'⟩ := f x
    cases o' with
    | ok y =>
      show ((g y).1, (n + n') + (g y).2) = ((g y).1, n + (n' + (g y).2))
      rw [Nat.add_assoc]
    | err e => rfl
    | panic w => rfl
  | err e => rfl
  | panic w => rfl

theorem Wr.bind {n a : Nat} {t : Tw α} {m : Out α} {f : α → Tw β} {g : α → Out β} {R : β → Nat → Prop} (h1 : t.1 = m) (hk : n + t.2 ≤ a)
    (h2 : ∀ x, m = .ok x → Wr (n + t.2) (f x) (g x) a R) : Wr n (t >>= f) (m >>= g) a R := by
  cases hm : m with
  | ok x =>
    obtain ⟨k1, k2, k3⟩ := h2 x hm
    have e : (t >>= f) = ((f x).1, t.2 + (f x).2) := Tw.bind_ok (h1.trans hm)
    refine ⟨(congrArg Prod.fst e).trans k1, ?_, fun y hy => ?_⟩
    · rw [congrArg Prod.snd e]
      show n + (t.2 + _) ≤ a
      omega
    · rw [congrArg Prod.snd e]
      show R y (n + (t.2 + _))
      rw [← Nat.add_assoc]
      exact k3 y hy
  | err e =>
    rw [Tw.bind_err (h1.trans hm)]
    exact ⟨rfl, hk, nofun⟩
  | panic w =>
    rw [Tw.bind_panic (h1.trans hm)]
    exact ⟨rfl, hk, nofun⟩

theorem encodeVarInt_len {x : U64} {b : Bytes} (h : encodeVarInt x = .ok b) : 1 ≤ b.length ∧ b.length ≤ 8 := by
  obtain ⟨k, hk, hl, _⟩ := encodeVarInt_isVarInt h
  rw [hl]
  match k, hk with
  | 0, _ | 1, _ | 2, _ | 3, _ => decide

theorem Wr.vi {n a : Nat} {x : U64} {f : Bytes → Tw β} {g : Bytes → Out β} {R : β → Nat → Prop} (hk : n + 9 ≤ a)
    (h2 : ∀ b, 1 ≤ b.length → b.length ≤ 8 → Wr (n + (1 + b.length)) (f b) (g b) a R) : Wr n (encodeVarIntT x >>= f) (encodeVarInt x >>= g) a R := by
  refine .bind rfl ?_ fun b hb => ?_
  · unfold encodeVarIntT
    cases hb : encodeVarInt x with
    | ok b =>
      have := encodeVarInt_len hb
      show n + (1 + b.length) ≤ a
      omega
    | err e => show n + 1 ≤ a; omega
    | panic w => show n + 1 ≤ a; omega
  · obtain ⟨l1, l2⟩ := encodeVarInt_len hb
    have e : (encodeVarIntT x).2 = 1 + b.length := by unfold encodeVarIntT; rw [hb]
    rw [e]
    exact h2 b l1 l2

theorem Wr.cid {n a : Nat} {x : U160} {len : Nat} {f : Bytes → Tw β} {g : Bytes → Out β} {R : β → Nat → Prop} (hk : n + 61 ≤ a)
    (h2 : ∀ b, b.length ≤ 20 → Wr (n + (41 + b.length)) (f b) (g b) a R) : Wr n (x.toVarBytesT len >>= f) (x.toVarBytes len >>= g) a R := by
  refine .bind rfl ?_ fun b hb => ?_
  · unfold U160.toVarBytesT
    cases hb : x.toVarBytes len with
    | ok b =>
      have := toVarBytes_len hb
      show n + (41 + b.length) ≤ a
      omega
    | err e => show n + 41 ≤ a; omega
    | panic w => show n + 41 ≤ a; omega
  · have l := toVarBytes_len hb
    have e : (x.toVarBytesT len).2 = 41 + b.length := by unfold U160.toVarBytesT; rw [hb]
    rw [e]
    exact h2 b l

theorem Wr.cat {n a : Nat} {parts : List Bytes} {out : Bytes} {R : Bytes → Nat → Prop} (he : parts.flatten = out) (hk : n + (1 + out.length) ≤ a)
    (hR : R out (n + (1 + out.length))) : Wr n (Tw.cat parts) (pure out) a R := by
  subst he
  exact ⟨rfl, hk, fun x hx => by cases hx; exact hR⟩

/-- A part of a writer whose bounds are known. -/
theorem Wr.sub {n a k : Nat} {t : Tw α} {m : Out α} {f : α → Tw β} {g : α → Out β} {Q : α → Nat → Prop} {R : β → Nat → Prop} (h1 : Wr 0 t m k Q) (hk : n + k ≤ a)
    (h2 : ∀ x w, m = .ok x → w ≤ k → Q x w → Wr (n + w) (f x) (g x) a R) : Wr n (t >>= f) (m >>= g) a R := by
  obtain ⟨k1, k2, k3⟩ := h1
  rw [Nat.zero_add] at k2 k3
  exact .bind k1 (by omega) fun x hx => h2 x _ hx k2 (k3 x hx)

theorem Wr.weaken {n a a' : Nat} {t : Tw α} {m : Out α} {R R' : α → Nat → Prop} (h : Wr n t m a R) (ha : a ≤ a') (hR : ∀ x w, R x w → R' x w) : Wr n t m a' R' :=
  ⟨h.1, Nat.le_trans h.2.1 ha, fun x hx => hR x _ (h.2.2 x hx)⟩

/-- What is written is counted, and at most `K` is done for each byte. -/
def Within (K L : Nat) (b : Bytes) (w : Nat) : Prop := b.length ≤ w ∧ w ≤ K * b.length ∧ b.length ≤ L

theorem range_work (x : AckRange) : Wr 0 x.toBytesT x.toBytes 35 fun b w => b.length ≤ w ∧ w + 1 ≤ 4 * b.length ∧ b.length ≤ 16 := by
  unfold AckRange.toBytesT AckRange.toBytes
  refine .vi (by omega) fun a _ _ => .vi (by omega) fun b _ _ => .cat (by simp) ?_ ⟨?_, ?_, ?_⟩ <;> simp only [List.length_append] <;> omega
theorem ecn_work (x : EcnCounts) : Wr 0 x.toBytesT x.toBytes 52 (Within 4 24) := by
  unfold EcnCounts.toBytesT EcnCounts.toBytes
  refine .vi (by omega) fun a _ _ => .vi (by omega) fun b _ _ => .vi (by omega) fun c _ _ => .cat (by simp) ?_ ⟨?_, ?_, ?_⟩ <;> simp only [List.length_append] <;> omega

/-- A loop that collects buffers: what they are together, and the work. -/
def Parts (K : Nat) (t : Tw (List Bytes)) (m : Out Bytes) (A B : Nat) : Prop :=
  (t.1 >>= fun p => pure p.flatten) = m ∧ t.2 ≤ A ∧ ∀ p, t.1 = .ok p → p.flatten.length ≤ t.2 ∧ t.2 ≤ K * p.flatten.length ∧ p.flatten.length ≤ B

theorem Parts.nil (K : Nat) : Parts K (pure []) (pure []) 0 0 := ⟨rfl, Nat.le_refl 0, fun p hp => by cases hp; exact ⟨Nat.le_refl 0, Nat.zero_le _, Nat.le_refl 0⟩⟩

theorem Parts.cons {K k L A B : Nat} {a : Tw Bytes} {ma : Out Bytes} {as : Tw (List Bytes)} {mas : Out Bytes}
    (h1 : Wr 0 a ma k fun b w => b.length ≤ w ∧ w + 1 ≤ K * b.length ∧ b.length ≤ L) (h2 : Parts K as mas A B) :
    Parts K (a >>= fun x => as >>= fun xs => Tw.work 1 (.ok (x :: xs))) (ma >>= fun x => mas >>= fun y => pure (x ++ y)) (k + 1 + A) (L + B) := by
  obtain ⟨e1, e2, e3⟩ := h1
  obtain ⟨f1, f2, f3⟩ := h2
  rw [Nat.zero_add] at e2 e3
  subst e1 f1
  obtain ⟨o, n⟩ := a
  obtain ⟨o', n'⟩ := as
  cases o with
  | ok x =>
    obtain ⟨g1, g2, g3⟩ := e3 x rfl
    cases o' with
    | ok xs =>
      obtain ⟨i1, i2, i3⟩ := f3 xs rfl
      refine ⟨rfl, ?_, fun p hp => ?_⟩
      · show n + (n' + 1) ≤ _
        have : n ≤ k := e2
        have : n' ≤ A := f2
        omega
      · cases hp
        show (x :: xs).flatten.length ≤ n + (n' + 1) ∧ n + (n' + 1) ≤ K * (x :: xs).flatten.length ∧ _
        have g1 : x.length ≤ n := g1
        have g2 : n + 1 ≤ K * x.length := g2
        have i1 : xs.flatten.length ≤ n' := i1
        have i2 : n' ≤ K * xs.flatten.length := i2
        rw [List.flatten_cons, List.length_append, Nat.mul_add]
        omega
    | err e => exact ⟨rfl, by show n + n' ≤ _; have : n ≤ k := e2; have : n' ≤ A := f2; omega, nofun⟩
    | panic w => exact ⟨rfl, by show n + n' ≤ _; have : n ≤ k := e2; have : n' ≤ A := f2; omega, nofun⟩
  | err e => exact ⟨rfl, by show n ≤ _; have : n ≤ k := e2; omega, nofun⟩
  | panic w => exact ⟨rfl, by show n ≤ _; have : n ≤ k := e2; omega, nofun⟩

theorem Parts.cat {K A B : Nat} {t : Tw (List Bytes)} {m : Out Bytes} (h : Parts K t m A B) :
    Wr 0 (t >>= Tw.cat) m (A + 1 + B) fun b w => b.length + 1 ≤ w ∧ w ≤ (K + 1) * b.length + 1 ∧ b.length ≤ B := by
  obtain ⟨e1, e2, e3⟩ := h
  subst e1
  obtain ⟨o, n⟩ := t
  cases o with
  | ok p =>
    obtain ⟨g1, g2, g3⟩ := e3 p rfl
    have g2 : n ≤ K * p.flatten.length := g2
    have e2 : n ≤ A := e2
    refine ⟨rfl, ?_, fun x hx => ?_⟩
    · show 0 + (n + (1 + p.flatten.length)) ≤ _
      omega
    · cases hx
      show p.flatten.length + 1 ≤ 0 + (n + (1 + p.flatten.length)) ∧ 0 + (n + (1 + p.flatten.length)) ≤ _ ∧ _
      rw [Nat.add_mul]
      omega
  | err e => exact ⟨rfl, by show 0 + n ≤ _; have : n ≤ A := e2; omega, nofun⟩
  | panic w => exact ⟨rfl, by show 0 + n ≤ _; have : n ≤ A := e2; omega, nofun⟩

theorem rangeParts_work (rs : List AckRange) : Parts 4 (FrameAck.rangePartsT rs) (FrameAck.rangesToBytes rs) (36 * rs.length) (16 * rs.length) := by
  induction rs with
  | nil => exact .nil 4
  | cons r rs ih =>
    have h := Parts.cons (range_work r) ih
    rw [List.length_cons, Nat.mul_add, Nat.mul_add, Nat.add_comm (36 * _), Nat.add_comm (16 * _)]
    exact h

/-- The bytes of a frame that are not integers: data, tokens, phrases; 16 for each range. -/
def Frame.weight : Frame → Nat
  | .ack x => 16 * x.ackRange.length
  | .crypto x => x.cryptoData.length
  | .newToken x => x.token.length
  | .stream x => x.streamData.length
  | .connectionClose x => x.reasonPhrase.length
  | _ => 0

theorem Wr.pure_bind {n a : Nat} {x : α} {f : α → Tw β} {g : α → Out β} {R : β → Nat → Prop} (h : Wr n (f x) (g x) a R) : Wr n (pure x >>= f) (pure x >>= g) a R := by
  obtain ⟨h1, h2, h3⟩ := h
  have e : (Pure.pure x >>= f : Tw β) = ((f x).1, 0 + (f x).2) := rfl
  refine ⟨(congrArg Prod.fst e).trans h1, ?_, fun y hy => ?_⟩ <;> rw [congrArg Prod.snd e]
  · show n + (0 + _) ≤ a
    omega
  · show R y (n + (0 + _))
    rw [Nat.zero_add]
    exact h3 y hy

theorem ack_work (x : FrameAck) : Wr 0 x.toBytesT x.toBytes (80 * x.ackRange.length + 149) fun b w => b.length ≤ w ∧ w + 1 ≤ 7 * b.length ∧ b.length ≤ 16 * x.ackRange.length + 57 := by
  unfold FrameAck.toBytesT FrameAck.toBytes
  rw [← Tw.bind_assoc]
  refine .sub (rangeParts_work x.ackRange).cat (by omega) fun rb w _ hw hQ => ?_
  obtain ⟨q1, q2, q3⟩ := hQ
  have tail : ∀ (t : U8) (eb : Bytes) (v : Nat), eb.length ≤ v → v ≤ 4 * eb.length → v ≤ 52 → eb.length ≤ 24 → Wr (0 + w + v)
      (do
        let a ← encodeVarIntT x.largestAcknowledged
        let b ← encodeVarIntT x.ackDelay
        let c ← encodeVarIntT x.ackRangeCount
        let d ← encodeVarIntT x.firstAckRange
        Tw.cat [[t], a, b, c, d, rb, eb])
      (do
        let a ← encodeVarInt x.largestAcknowledged
        let b ← encodeVarInt x.ackDelay
        let c ← encodeVarInt x.ackRangeCount
        let d ← encodeVarInt x.firstAckRange
        pure ([t] ++ a ++ b ++ c ++ d ++ rb ++ eb))
      (80 * x.ackRange.length + 149) fun b w => b.length ≤ w ∧ w + 1 ≤ 7 * b.length ∧ b.length ≤ 16 * x.ackRange.length + 57 := by
    intro t eb v v1 v2 v3 v4
    refine .vi (by omega) fun a _ _ => .vi (by omega) fun b _ _ => .vi (by omega) fun c _ _ => .vi (by omega) fun d _ _ => .cat (by simp) ?_ ⟨?_, ?_, ?_⟩ <;>
      simp only [List.length_append, List.length_cons, List.length_nil] <;> omega
  cases x.ecnCounts with
  | none => exact .pure_bind (tail _ _ 0 (Nat.le_refl _) (Nat.zero_le _) (Nat.zero_le _) (Nat.zero_le _))
  | some e =>
    simp only
    refine .sub (ecn_work e) (by omega) fun eb v _ hv hE => ?_
    exact .pure_bind (tail _ _ v hE.1 hE.2.1 hv hE.2.2)

/-- Writing a frame: at most seven for each byte; and at most five for each byte of its data besides 160, if nothing comes of it. -/
theorem frame_work (f : Frame) (e : Bool) :
    Wr 0 (f.toBytesT e) (f.toBytes e) (5 * f.weight + 160) fun b w => b.length ≤ w ∧ w + 1 ≤ 7 * b.length ∧ b.length ≤ f.weight + 57 := by
  cases f with
  | padding => exact ⟨rfl, by show 0 + 2 ≤ _; omega, fun x hx => by cases hx; decide +revert⟩
  | ping => exact ⟨rfl, by show 0 + 2 ≤ _; omega, fun x hx => by cases hx; decide +revert⟩
  | handshakeDone => exact ⟨rfl, by show 0 + 2 ≤ _; omega, fun x hx => by cases hx; decide +revert⟩
  | ack x =>
    refine (ack_work x).weaken ?_ fun b w h => ⟨h.1, h.2.1, h.2.2⟩
    show _ ≤ 5 * (16 * x.ackRange.length) + 160
    omega
  | resetStream x | stopSending x | maxData x | maxStreamData x | maxStreams x | dataBlocked x | streamDataBlocked x | streamsBlocked x | retireConnectionId x =>
    simp only [Frame.toBytesT, Frame.toBytes, Frame.weight, FrameResetStream.toBytesT, FrameResetStream.toBytes, FrameStopSending.toBytesT, FrameStopSending.toBytes,
      FrameMaxData.toBytesT, FrameMaxData.toBytes, FrameMaxStreamData.toBytesT, FrameMaxStreamData.toBytes, FrameMaxStreams.toBytesT, FrameMaxStreams.toBytes,
      FrameDataBlocked.toBytesT, FrameDataBlocked.toBytes, FrameStreamDataBlocked.toBytesT, FrameStreamDataBlocked.toBytes, FrameStreamsBlocked.toBytesT, FrameStreamsBlocked.toBytes,
      FrameRetireConnectionId.toBytesT, FrameRetireConnectionId.toBytes]
    repeat refine .vi (by omega) fun _ _ _ => ?_
    refine .cat (by simp) ?_ ⟨?_, ?_, ?_⟩ <;> simp only [List.length_append, List.length_cons, List.length_nil] <;> omega
  | crypto x | newToken x =>
    simp only [Frame.toBytesT, Frame.toBytes, Frame.weight, FrameCrypto.toBytesT, FrameCrypto.toBytes, FrameNewToken.toBytesT, FrameNewToken.toBytes]
    repeat refine .vi (by omega) fun _ _ _ => ?_
    refine .cat (by simp) ?_ ⟨?_, ?_, ?_⟩ <;> simp only [List.length_append, List.length_cons, List.length_nil] <;> omega
  | pathChallenge x | pathResponse x =>
    refine .cat (by simp [FramePathChallenge.toBytes, FramePathResponse.toBytes]) ?_ ⟨?_, ?_, ?_⟩ <;>
      simp only [List.length_append, List.length_cons, List.length_nil, FramePathChallenge.toBytes, FramePathResponse.toBytes, toBeBytes_length] <;> omega
  | newConnectionId x =>
    simp only [Frame.toBytesT, Frame.toBytes, Frame.weight, FrameNewConnectionId.toBytesT, FrameNewConnectionId.toBytes]
    refine .vi (by omega) fun _ _ _ => .vi (by omega) fun _ _ _ => .cid (by omega) fun _ _ => ?_
    refine .cat (by simp) ?_ ⟨?_, ?_, ?_⟩ <;> simp only [List.length_append, List.length_cons, List.length_nil, toBeBytes_length] <;> omega
  | stream x =>
    have hlen : ∀ (n : Nat) (b : Bool) (v : U64) (f : Bytes → Tw Bytes) (g : Bytes → Out Bytes) (a : Nat) (R : Bytes → Nat → Prop), n + 9 ≤ a →
        (∀ bs w, bs.length ≤ w → w ≤ 2 * bs.length → bs.length ≤ 8 → w ≤ 9 → Wr (n + w) (f bs) (g bs) a R) →
        Wr n (if b then encodeVarIntT v >>= f else pure [] >>= f) (if b then encodeVarInt v >>= g else pure [] >>= g) a R := by
      intro n b v f g a R h1 h2
      by_cases hb : b = true
      · rw [if_pos hb, if_pos hb]
        exact .vi h1 fun bs l1 l2 => h2 bs _ (by omega) (by omega) l2 (by omega)
      · rw [if_neg hb, if_neg hb]
        exact .pure_bind (h2 [] 0 (Nat.le_refl _) (Nat.le_refl _) (Nat.zero_le _) (Nat.zero_le _))
    simp only [Frame.toBytesT, Frame.toBytes, Frame.weight, FrameStream.toBytesT, FrameStream.toBytes]
    refine .vi (by omega) fun _ _ _ => ?_
    refine hlen _ _ _ _ _ _ _ (by omega) fun _ _ _ _ _ _ => ?_
    refine hlen _ _ _ _ _ _ _ (by omega) fun _ _ _ _ _ _ => ?_
    refine .cat (by simp) ?_ ⟨?_, ?_, ?_⟩ <;> simp only [List.length_append, List.length_cons, List.length_nil] <;> omega
  | connectionClose x =>
    simp only [Frame.toBytesT, Frame.toBytes, Frame.weight, FrameConnectionClose.toBytesT, FrameConnectionClose.toBytes]
    cases x.frameType with
    | none =>
      refine .pure_bind (.vi (by omega) fun _ _ _ => .vi (by omega) fun _ _ _ => ?_)
      refine .cat (by simp) ?_ ⟨?_, ?_, ?_⟩ <;> simp only [List.length_append, List.length_cons, List.length_nil] <;> omega
    | some t =>
      refine .vi (by omega) fun _ _ _ => .vi (by omega) fun _ _ _ => .vi (by omega) fun _ _ _ => ?_
      refine .cat (by simp) ?_ ⟨?_, ?_, ?_⟩ <;> simp only [List.length_append, List.length_cons, List.length_nil] <;> omega

/-- The data of frames, and 57 for each. -/
def framesWeight : List Frame → Nat
  | [] => 0
  | f :: fs => f.weight + 57 + framesWeight fs

theorem frameParts_work (fs : List Frame) (e : Bool) : Parts 7 (framePartsT fs e) (serializeFrames fs e) (5 * framesWeight fs) (framesWeight fs) := by
  induction fs with
  | nil => exact .nil 7
  | cons f fs ih =>
    have h := Parts.cons (frame_work f (e && fs.isEmpty)) ih
    obtain ⟨h1, h2, h3⟩ := h
    refine ⟨h1, Nat.le_trans h2 ?_, h3⟩
    show _ ≤ 5 * (f.weight + 57 + framesWeight fs)
    omega

theorem frames_work (fs : List Frame) (e : Bool) :
    Wr 0 (serializeFramesT fs e) (serializeFrames fs e) (6 * framesWeight fs + 1) fun b w => b.length + 1 ≤ w ∧ w ≤ 8 * b.length + 1 ∧ b.length ≤ framesWeight fs :=
  (frameParts_work fs e).cat.weaken (by omega) fun _ _ h => h

theorem header_work (h : LongPacketHeader) : Wr 0 h.toBytesT h.toBytes 170 fun b w => b.length ≤ w ∧ w ≤ 170 ∧ 7 ≤ b.length ∧ b.length ≤ 47 := by
  unfold LongPacketHeader.toBytesT LongPacketHeader.toBytes
  refine .cid (by omega) fun d _ => .cid (by omega) fun s _ => ?_
  refine .cat (by simp) ?_ ⟨?_, ?_, ?_, ?_⟩ <;> simp only [List.length_append, List.length_cons, List.length_nil, toBeBytes_length] <;> omega

theorem Wr.step {n a k : Nat} {m : Out α} {f : α → Tw β} {g : α → Out β} {R : β → Nat → Prop} (hk : n + k ≤ a)
    (h2 : ∀ x, m = .ok x → Wr (n + k) (f x) (g x) a R) : Wr n (Tw.work k m >>= f) (m >>= g) a R := .bind rfl hk h2

/-- What sealing gives is 16 bytes longer. -/
def Seals (c : Connection) (sp : PnSpace) : Prop := ∀ payload ad pn out, c.encryptLocalPayload sp payload ad pn = .ok out → out.length = payload.length + 16

theorem Wr.enc {c : Connection} {sp : PnSpace} (hc : Seals c sp) {n a : Nat} {payload ad : Bytes} {pn : U64} {f : Bytes → Tw β} {g : Bytes → Out β} {R : β → Nat → Prop}
    (hk : n + (55 + ad.length + 3 * payload.length) ≤ a)
    (h2 : ∀ b, b.length = payload.length + 16 → Wr (n + (55 + ad.length + 3 * payload.length)) (f b) (g b) a R) :
    Wr n (c.encryptLocalPayloadT sp payload ad pn >>= f) (c.encryptLocalPayload sp payload ad pn >>= g) a R := by
  refine .bind rfl ?_ fun b hb => ?_
  · unfold Connection.encryptLocalPayloadT
    cases hb : c.encryptLocalPayload sp payload ad pn with
    | ok b =>
      have := hc _ _ _ _ hb
      show n + (23 + ad.length + payload.length + 2 * b.length) ≤ a
      omega
    | err e => show n + (23 + ad.length + payload.length + 0) ≤ a; omega
    | panic w => show n + (23 + ad.length + payload.length + 0) ≤ a; omega
  · have l := hc _ _ _ _ hb
    have e : (c.encryptLocalPayloadT sp payload ad pn).2 = 55 + ad.length + 3 * payload.length := by
      unfold Connection.encryptLocalPayloadT
      rw [hb]
      show 23 + ad.length + payload.length + 2 * b.length = _
      omega
    rw [e]
    exact h2 b l

/-- The header protection mask, from a sample of the stream. -/
def Masks (c : Connection) (sp : PnSpace) : Prop := ∀ s, (c.getLocalHpMaskT sp s).1 = (c.getLocalHpMask sp s).1 ∧ (c.getLocalHpMaskT sp s).2.2 ≤ 16

theorem Wr.mask {c : Connection} {sp : PnSpace} (hc : Masks c sp) {n a : Nat} {s : Stream} {f : Mask → Tw β} {g : Mask → Out β} {R : β → Nat → Prop} (hk : n + 16 ≤ a)
    (h2 : ∀ m w, w ≤ 16 → Wr (n + w) (f m) (g m) a R) : Wr n (Tw.read (c.getLocalHpMaskT sp) s >>= f) ((c.getLocalHpMask sp s).1 >>= g) a R := by
  obtain ⟨h1, h3⟩ := hc s
  exact .bind h1 (by show n + (c.getLocalHpMaskT sp s).2.2 ≤ a; omega) fun x _ => h2 x _ h3

theorem seals_of_keys {P : Prims} (hP : PrimLaws P) {c : Connection} {sp : PnSpace} (h : (∃ k, c.localSecrets sp = .ok (secretsOf P k)) ∨ ∃ e, c.localSecrets sp = .err e) :
    Seals c sp ∧ Masks c sp := by
  have hm := (Cost.lift_bind (K := 1) (a := 0) (b := 1) (ψ := fun _ => 0) (x := c.localSecrets sp) (f := fun s => s.getHeaderProtectionMaskT) (g := fun s => s.getHeaderProtectionMask)
    fun s _ => .seq0 (varBytes_cost 0 _) fun _ => .lift fun _ _ => Nat.le_refl 0)
  rcases h with ⟨k, hk⟩ | ⟨e, he⟩
  · refine ⟨fun payload ad pn out ho => ?_, fun s => ⟨(hm s).1, ?_⟩⟩
    · rw [localEncrypt_eq hk] at ho
      unfold internalEncryptAes128Gcm at ho
      split at ho
      · cases ho
      rename_i ct tag hseal
      cases ho
      obtain ⟨l1, l2⟩ := hP.seal_length _ _ _ _ _ _ hseal
      rw [List.length_append, l1, l2]
    · unfold Connection.getLocalHpMaskT
      rw [hk, Tk.bind_apply]
      show 0 + ((secretsOf P k).getHeaderProtectionMaskT s).2.2 ≤ 16
      rw [Nat.zero_add]
      exact Tk.bind_ticks (k := 0) (varBytes_ticks 16) (fun _ _ => Nat.le_refl 0) s
  · refine ⟨fun payload ad pn out ho => ?_, fun s => ⟨(hm s).1, ?_⟩⟩
    · unfold Connection.encryptLocalPayload at ho
      rw [he] at ho
      cases ho
    · unfold Connection.getLocalHpMaskT
      rw [he]
      exact Nat.zero_le _

theorem Wr.catb {n a : Nat} {parts : List Bytes} {x : Bytes} {f : Bytes → Tw β} {m : Out β} {R : β → Nat → Prop} (he : parts.flatten = x) (hk : n + (1 + x.length) ≤ a)
    (h2 : Wr (n + (1 + x.length)) (f x) m a R) : Wr n (Tw.cat parts >>= f) m a R := by
  subst he
  exact .bind (t := Tw.cat parts) (m := .ok parts.flatten) (g := fun _ => m) rfl hk fun x hx => by cases hx; exact h2

theorem initial_work {c : Connection} (hs : Seals c .initial) (hm : Masks c .initial) (p : PacketInitial) :
    Wr 0 (p.serializeT c) (p.serialize c) (10 * framesWeight p.packetPayload + 3 * p.token.length + 5 * p.packetNumberBytes.length + p.header.cloned + 640)
      fun b w => b.length ≤ w ∧ w ≤ 12 * b.length + p.header.cloned + 340 := by
  unfold PacketInitial.serializeT PacketInitial.serialize
  refine .sub (frames_work _ _) (by omega) fun pl w1 _ _ ⟨q1, q2, q3⟩ => ?_
  refine .step (by omega) fun pnl hpnl => .step (by omega) fun prl _ => .vi (by omega) fun lb _ _ => .vi (by omega) fun tl _ _ => ?_
  refine .sub (header_work _) (by omega) fun hb w2 _ _ ⟨r1, r2, r3, r4⟩ => ?_
  refine .catb (x := hb ++ tl ++ p.token ++ lb ++ p.packetNumberBytes) (by simp) (by simp only [List.length_append]; omega) ?_
  refine .enc hs (by simp only [List.length_append]; omega) fun ct hct => ?_
  simp only [List.length_append]
  refine .step (by omega) fun sb _ => .mask hm (by omega) fun mk w3 _ => .step (by omega) fun pw hpw => ?_
  have hpl : pw.length ≤ p.packetNumberBytes.length ∧ p.packetNumberBytes.length ≤ 4 := by
    obtain ⟨x1, x2⟩ := xorPn_ok.mp hpw
    rw [x2, List.length_zipWith]
    omega
  refine .sub (header_work _) (by omega) fun hb' w4 _ _ ⟨s1, s2, s3, s4⟩ => ?_
  refine .cat (by simp) ?_ ⟨?_, ?_⟩ <;> simp only [List.length_append] <;> omega

theorem handshake_work {c : Connection} (hs : Seals c .handshake) (hm : Masks c .handshake) (p : PacketHandshake) :
    Wr 0 (p.serializeT c) (p.serialize c) (10 * framesWeight p.packetPayload + 5 * p.packetNumberBytes.length + p.header.cloned + 640)
      fun b w => b.length ≤ w ∧ w ≤ 12 * b.length + p.header.cloned + 340 := by
  unfold PacketHandshake.serializeT PacketHandshake.serialize
  refine .sub (frames_work _ _) (by omega) fun pl w1 _ _ ⟨q1, q2, q3⟩ => ?_
  refine .step (by omega) fun pnl hpnl => .step (by omega) fun prl _ => .vi (by omega) fun lb _ _ => ?_
  refine .sub (header_work _) (by omega) fun hb w2 _ _ ⟨r1, r2, r3, r4⟩ => ?_
  refine .catb (x := hb ++ lb ++ p.packetNumberBytes) (by simp) (by simp only [List.length_append]; omega) ?_
  refine .enc hs (by simp only [List.length_append]; omega) fun ct hct => ?_
  simp only [List.length_append]
  refine .step (by omega) fun sb _ => .mask hm (by omega) fun mk w3 _ => .step (by omega) fun pw hpw => ?_
  have hpl : pw.length ≤ p.packetNumberBytes.length ∧ p.packetNumberBytes.length ≤ 4 := by
    obtain ⟨x1, x2⟩ := xorPn_ok.mp hpw
    rw [x2, List.length_zipWith]
    omega
  refine .sub (header_work _) (by omega) fun hb' w4 _ _ ⟨s1, s2, s3, s4⟩ => ?_
  refine .cat (by simp) ?_ ⟨?_, ?_⟩ <;> simp only [List.length_append] <;> omega

end QuicSea
