import Verif.Props.Decode
/-
C73: debug and release builds agree. The two profiles of the model differ in the arithmetic only (`subUsize`, `addU64`): a debug build panics where
a release build wraps.
-/
namespace QuicSea
open Spec

/-! ### Release follows debug wherever debug does not panic -/

def Follows (d r : Rd α) : Prop := ∀ s, (d s).1.isPanic = false → r s = d s

theorem Follows.refl (m : Rd α) : Follows m m := fun _ _ => rfl
theorem Follows.bind {d r : Rd α} {f g : α → Rd β} (h : Follows d r) (hf : ∀ a, Follows (f a) (g a)) : Follows (d >>= f) (r >>= g) := by
  intro s hs
  have h := h s
  rw [Rd.bind_apply] at hs
  rw [Rd.bind_apply, Rd.bind_apply]
  rcases e : d s with ⟨o, s'⟩
  rw [e] at h hs
  cases o with
  | ok a =>
    rw [h rfl]
    exact hf a s' hs
  | err w => rw [h rfl]
  | panic w => cases hs
theorem Follows.lift {x y : Out α} (h : x.isPanic = false → y = x) : Follows (Rd.lift x) (Rd.lift y) := by
  intro s hs
  rw [Rd.lift_apply, Rd.lift_apply, h hs]

theorem addU64_follows {a b : U64} (h : (addU64 .debug a b).isPanic = false) : addU64 .release a b = addU64 .debug a b := by
  unfold addU64 at h ⊢
  split
  · rfl
  · rename_i hn; rw [if_neg hn] at h; cases h
theorem subUsize_follows {a b : Nat} (h : (subUsize .debug a b).isPanic = false) : subUsize .release a b = subUsize .debug a b := by
  unfold subUsize at h ⊢
  split
  · rfl
  · rename_i hn; rw [if_neg hn] at h; cases h
theorem reconstruct_follows {c : Connection} {sp : PnSpace} {l : Bytes} (h : (c.reconstructRemotePn .debug sp l).isPanic = false) :
    c.reconstructRemotePn .release sp l = c.reconstructRemotePn .debug sp l := by
  unfold Connection.reconstructRemotePn at h ⊢
  dsimp only at h ⊢
  split
  · rfl
  · rename_i h4
    rw [if_neg h4] at h
    split
    · rename_i x hx
      rw [hx] at h
      dsimp only at h
      split
      · rename_i ht
        rw [if_pos ht] at h
        exact addU64_follows h
      · rename_i ht
        rw [if_neg ht] at h
        have h1 : (addU64 .debug (x >>> l.length) 1).isPanic = false := by
          rcases e : addU64 .debug (x >>> l.length) 1 with t | t | t
          · rfl
          · rfl
          · rw [e] at h; cases h
        rw [addU64_follows h1]
        rcases e : addU64 .debug (x >>> l.length) 1 with t | t | t
        · rw [e] at h
          exact addU64_follows h
        · rfl
        · rfl
    · rfl

theorem lenBytes_follows (l : U64) (n : Nat) : Follows (lenBytes .debug l n) (lenBytes .release l n) :=
  (Follows.lift subUsize_follows).bind fun _ => Follows.refl _
theorem tail_follows (c : Connection) (sp : PnSpace) (w : Bool) (lenOf : Mask → Out Nat) (hdr : Mask → Out Bytes) {pd pr : Nat → Rd Bytes}
    (h : ∀ n, Follows (pd n) (pr n)) (mid : Bytes) : Follows (tail .debug c sp w lenOf hdr pd mid) (tail .release c sp w lenOf hdr pr mid) :=
  (Follows.refl _).bind fun _ => (Follows.refl _).bind fun _ => (Follows.refl _).bind fun _ => (Follows.refl _).bind fun _ =>
  (Follows.refl _).bind fun _ => (Follows.refl _).bind fun _ => (Follows.lift reconstruct_follows).bind fun _ => (h _).bind fun _ => Follows.refl _
theorem initial_follows (c : Connection) : Follows (PacketInitial.fromStream .debug c) (PacketInitial.fromStream .release c) := by
  rw [initial_eq, initial_eq]
  exact (Follows.refl _).bind fun _ => (Follows.refl _).bind fun _ => (Follows.refl _).bind fun _ => (Follows.refl _).bind fun _ =>
    (Follows.refl _).bind fun l => (tail_follows c _ _ _ _ (lenBytes_follows l.1) _).bind fun _ => Follows.refl _
theorem handshake_follows (c : Connection) : Follows (PacketHandshake.fromStream .debug c) (PacketHandshake.fromStream .release c) := by
  rw [handshake_eq, handshake_eq]
  exact (Follows.refl _).bind fun _ => (Follows.refl _).bind fun _ =>
    (Follows.refl _).bind fun l => (tail_follows c _ _ _ _ (lenBytes_follows l.1) _).bind fun _ => Follows.refl _
theorem zeroRtt_follows (c : Connection) : Follows (PacketZeroRtt.fromStream .debug c) (PacketZeroRtt.fromStream .release c) := by
  rw [zeroRtt_eq, zeroRtt_eq]
  exact (Follows.refl _).bind fun _ => (Follows.refl _).bind fun _ =>
    (Follows.refl _).bind fun l => (tail_follows c _ _ _ _ (lenBytes_follows l.1) _).bind fun _ => Follows.refl _
theorem oneRtt_follows (c : Connection) : Follows (PacketOneRtt.fromStream .debug c) (PacketOneRtt.fromStream .release c) := by
  rw [oneRtt_eq, oneRtt_eq]
  exact (Follows.refl _).bind fun _ => (Follows.refl _).bind fun _ => (tail_follows c _ _ _ _ (fun _ => Follows.refl _) _).bind fun _ => Follows.refl _
theorem decodeNext_follows (c : Connection) : Follows (decodeNextPacket .debug c) (decodeNextPacket .release c) := by
  unfold decodeNextPacket
  refine (Follows.refl _).bind fun _ => (Follows.refl _).bind fun h => ?_
  cases h with
  | short x => exact (oneRtt_follows c).bind fun _ => Follows.refl _
  | long x =>
    refine (Follows.refl _).bind fun t => ?_
    cases t
    case handshake => exact (handshake_follows c).bind fun _ => Follows.refl _
    case initial => exact (initial_follows c).bind fun _ => Follows.refl _
    case zeroRtt => exact (zeroRtt_follows c).bind fun _ => Follows.refl _
    all_goals exact Follows.refl _
theorem loop_follows (c : Connection) (n : Nat) : Follows (decodePacketsLoop .debug c n) (decodePacketsLoop .release c n) := by
  induction n with
  | zero => intro s _; cases s <;> rfl
  | succ n ih =>
    intro s hs
    cases s with
    | nil => rfl
    | cons x s =>
      have h1 := decodeNext_follows c (x :: s)
      simp only [decodePacketsLoop] at hs ⊢
      rcases e : decodeNextPacket .debug c (x :: s) with ⟨o, s'⟩
      rw [e] at h1 hs
      cases o with
      | ok p =>
        rw [h1 rfl]
        dsimp only at hs ⊢
        have h2 := ih s'
        rcases e2 : decodePacketsLoop .debug c n s' with ⟨o2, s2⟩
        rw [e2] at h2 hs
        cases o2 with
        | ok ps => rw [h2 rfl]
        | err w => rw [h2 rfl]
        | panic w => cases hs
      | err w => rw [h1 rfl]
      | panic w => cases hs

/-- C73, receiving. If a debug build does not panic on a datagram, a release build does the same with it: any connection, any datagram. -/
theorem C73_decode_release (c : Connection) (s : Stream) (h : (decodePackets .debug c s).1.isPanic = false) :
    decodePackets .release c s = decodePackets .debug c s := loop_follows c _ s h

/-! ### What a release build accepts, a debug build accepts -/

/-- For streams shorter than `N`: what `r` delivers, `d` delivers. -/
def Backs (N : Nat) (r d : Rd α) : Prop := ∀ s a s', s.length < N → r s = (.ok a, s') → d s = (.ok a, s')

theorem Backs.refl (N : Nat) (m : Rd α) : Backs N m m := fun _ _ _ _ h => h
theorem Backs.bind {N : Nat} {r d : Rd α} {g f : α → Rd β} (hm : Shrinks r) (h : Backs N r d) (hf : ∀ a, Backs N (g a) (f a)) :
    Backs N (r >>= g) (d >>= f) := by
  intro s b s' hs e
  obtain ⟨a, s1, e1, e2⟩ := Rd.bind_eq_ok e
  have hl : s1.length ≤ s.length := by
    have := hm s
    rw [e1] at this
    exact this.length_le
  rw [Rd.bind_ok (h s a s1 hs e1)]
  exact hf a s1 b s' (by omega) e2

theorem lenBytes_backs {l : U64} {n : Nat} (hn : n ≤ 4) : Backs (2 ^ 63) (lenBytes .release l n) (lenBytes .debug l n) := by
  intro s a s' hs e
  unfold lenBytes subUsize at e ⊢
  by_cases h : n ≤ l.toNat
  · rw [if_pos h] at e ⊢
    exact e
  · rw [if_neg h] at e
    dsimp only at e
    rw [Rd.bind_ok (Rd.lift_apply _ s)] at e
    obtain ⟨bs, e1, e2, e3⟩ := varBytes_sound _ s a s' e
    have := congrArg List.length e1
    rw [List.length_append, makeResultStream_length, e2, e3] at this
    omega
theorem pnLen_le {h : LongPacketHeader} {n : Nat} (e : h.packetNumberLength = .ok n) : n ≤ 4 := by
  unfold LongPacketHeader.packetNumberLength at e
  split at e
  · cases e
  · cases e
    have := BitVec.toNat_and h.headerByte 3#8
    have : (h.headerByte &&& 3#8).toNat ≤ 3 := by rw [this]; exact Nat.and_le_right
    simp_all
theorem tail_backs {c : Connection} {sp : PnSpace} (ha : (c.pnInfo sp).largestRemoteAck = none) (w : Bool) (lenOf : Mask → Out Nat)
    (hdr : Mask → Out Bytes) {pr pd : Nat → Rd Bytes} (hsh : ∀ n, Shrinks (pr n)) (h : ∀ m n, lenOf m = .ok n → Backs (2 ^ 63) (pr n) (pd n)) (mid : Bytes) :
    Backs (2 ^ 63) (tail .release c sp w lenOf hdr pr mid) (tail .debug c sp w lenOf hdr pd mid) := by
  refine Backs.bind (varBytes_shrinks _) (Backs.refl _ _) fun _ => Backs.bind Shrinks.cloned (Backs.refl _ _) fun _ =>
    Backs.bind (Shrinks.lift _) (Backs.refl _ _) fun m => ?_
  have er : ∀ l, c.reconstructRemotePn .release sp l = c.reconstructRemotePn .debug sp l := by
    intro l
    unfold Connection.reconstructRemotePn
    simp only [ha]
  intro s a s' hs e
  obtain ⟨n, s1, e1, e2⟩ := Rd.bind_eq_ok e
  have e0 : lenOf m = .ok n := congrArg Prod.fst e1
  have e00 : s = s1 := congrArg Prod.snd e1
  subst e00
  rw [Rd.bind_ok (a := n) (s' := s) e1]
  refine (Backs.bind (Shrinks.lift _) (Backs.refl _ _) fun _ => Backs.bind (Shrinks.lift _) (Backs.refl _ _) fun _ =>
    Backs.bind (Shrinks.lift _) ?_ fun _ => Backs.bind (hsh n) (h m n e0) fun _ => Backs.refl _ _) s a s' hs e2
  rw [er]
  exact Backs.refl _ _

theorem initial_backs {c : Connection} (ha : ∀ sp, (c.pnInfo sp).largestRemoteAck = none) :
    Backs (2 ^ 63) (PacketInitial.fromStream .release c) (PacketInitial.fromStream .debug c) := by
  rw [initial_eq, initial_eq]
  exact Backs.bind u8_shrinks (Backs.refl _ _) fun _ => Backs.bind (long_shrinks _) (Backs.refl _ _) fun _ =>
    Backs.bind varIntWithBytes_shrinks (Backs.refl _ _) fun _ => Backs.bind (varBytes_shrinks _) (Backs.refl _ _) fun _ =>
    Backs.bind varIntWithBytes_shrinks (Backs.refl _ _) fun l =>
    Backs.bind (tail_shrinks _ c _ _ _ _ (lenBytes_shrinks _ _) _) (tail_backs (ha _) _ _ _ (lenBytes_shrinks _ _) (fun _ _ h => lenBytes_backs (pnLen_le h)) _) fun _ => Backs.refl _ _
theorem handshake_backs {c : Connection} (ha : ∀ sp, (c.pnInfo sp).largestRemoteAck = none) :
    Backs (2 ^ 63) (PacketHandshake.fromStream .release c) (PacketHandshake.fromStream .debug c) := by
  rw [handshake_eq, handshake_eq]
  exact Backs.bind u8_shrinks (Backs.refl _ _) fun _ => Backs.bind (long_shrinks _) (Backs.refl _ _) fun _ =>
    Backs.bind varIntWithBytes_shrinks (Backs.refl _ _) fun l =>
    Backs.bind (tail_shrinks _ c _ _ _ _ (lenBytes_shrinks _ _) _) (tail_backs (ha _) _ _ _ (lenBytes_shrinks _ _) (fun _ _ h => lenBytes_backs (pnLen_le h)) _) fun _ => Backs.refl _ _
theorem zeroRtt_backs {c : Connection} (ha : ∀ sp, (c.pnInfo sp).largestRemoteAck = none) :
    Backs (2 ^ 63) (PacketZeroRtt.fromStream .release c) (PacketZeroRtt.fromStream .debug c) := by
  rw [zeroRtt_eq, zeroRtt_eq]
  exact Backs.bind u8_shrinks (Backs.refl _ _) fun _ => Backs.bind (long_shrinks _) (Backs.refl _ _) fun _ =>
    Backs.bind varIntWithBytes_shrinks (Backs.refl _ _) fun l =>
    Backs.bind (tail_shrinks _ c _ _ _ _ (lenBytes_shrinks _ _) _) (tail_backs (ha _) _ _ _ (lenBytes_shrinks _ _) (fun _ _ h => lenBytes_backs (pnLen_le h)) _) fun _ => Backs.refl _ _
theorem oneRtt_backs {c : Connection} (ha : ∀ sp, (c.pnInfo sp).largestRemoteAck = none) :
    Backs (2 ^ 63) (PacketOneRtt.fromStream .release c) (PacketOneRtt.fromStream .debug c) := by
  rw [oneRtt_eq, oneRtt_eq]
  exact Backs.bind u8_shrinks (Backs.refl _ _) fun _ => Backs.bind (short_shrinks _) (Backs.refl _ _) fun _ =>
    Backs.bind (tail_shrinks _ c _ _ _ _ (fun _ => allBytes_shrinks) _) (tail_backs (ha _) _ _ _ (fun _ => allBytes_shrinks) (fun _ _ _ => Backs.refl _ _) _) fun _ => Backs.refl _ _

theorem decodeNext_backs {c : Connection} (ha : ∀ sp, (c.pnInfo sp).largestRemoteAck = none) :
    Backs (2 ^ 63) (decodeNextPacket .release c) (decodeNextPacket .debug c) := by
  unfold decodeNextPacket
  refine Backs.bind Shrinks.cloned (Backs.refl _ _) fun _ => Backs.bind (Shrinks.lift _) (Backs.refl _ _) fun h => ?_
  have sh : ∀ {α β : Type} {r d : Rd α} {f : α → β}, Backs (2 ^ 63) r d → Backs (2 ^ 63) (r >>= fun a => (pure (f a) : Rd β)) (d >>= fun a => (pure (f a) : Rd β)) := by
    intro α β r d f h s b s' hs e
    obtain ⟨a, s1, e1, e2⟩ := Rd.bind_eq_ok e
    rw [Rd.bind_ok (h s a s1 hs e1)]
    exact e2
  cases h with
  | short x => exact sh (oneRtt_backs ha)
  | long x =>
    refine Backs.bind (Shrinks.lift _) (Backs.refl _ _) fun t => ?_
    cases t
    case handshake => exact sh (handshake_backs ha)
    case initial => exact sh (initial_backs ha)
    case zeroRtt => exact sh (zeroRtt_backs ha)
    all_goals exact Backs.refl _ _
theorem loop_backs {c : Connection} (ha : ∀ sp, (c.pnInfo sp).largestRemoteAck = none) (n : Nat) :
    Backs (2 ^ 63) (decodePacketsLoop .release c n) (decodePacketsLoop .debug c n) := by
  induction n with
  | zero => intro s a s' _ e; cases s <;> exact e
  | succ n ih =>
    intro s ps s' hs e
    cases s with
    | nil => exact e
    | cons x s =>
      simp only [decodePacketsLoop] at e ⊢
      rcases e1 : decodeNextPacket .release c (x :: s) with ⟨o, s1⟩
      rw [e1] at e
      cases o with
      | ok p =>
        rw [decodeNext_backs ha _ _ _ hs e1]
        dsimp only at e ⊢
        have hl := (decodeNext_consumes .release c _ _ _ e1).2
        rcases e2 : decodePacketsLoop .release c n s1 with ⟨o2, s2⟩
        rw [e2] at e
        cases o2 with
        | ok qs =>
          rw [ih _ _ _ (by omega) e2]
          exact e
        | err w => cases e
        | panic w => cases e
      | err w => cases e
      | panic w => cases e

/-- C73, receiving, the other way. Whatever packets a release build delivers from a datagram of less than 2^63 bytes, a debug build delivers as
well: at any connection in any reachable state. -/
theorem C73_decode_debug (P : Prims) (bp : Profile) (c : Connection) (hr : Connection.Reachable P bp c) (s : Stream) (hs : s.length < 2 ^ 63)
    (ps : List Packet) (s' : Stream) (h : decodePackets .release c s = (.ok ps, s')) : decodePackets .debug c s = (.ok ps, s') :=
  loop_backs (fun sp => (reachable_acks hr sp).2) _ s ps s' hs h

/-- C73, both ways: with `.ok` on one side, the two builds deliver the same packets. -/
theorem C73_decode_agree (P : Prims) (bp : Profile) (c : Connection) (hr : Connection.Reachable P bp c) (s : Stream) (hs : s.length < 2 ^ 63)
    (ps : List Packet) : (decodePackets .release c s).1 = .ok ps ↔ (decodePackets .debug c s).1 = .ok ps := by
  constructor
  · intro h
    rw [C73_decode_debug P bp c hr s hs ps _ (Prod.ext h rfl)]
  · intro h
    rw [C73_decode_release c s (by rw [h]; rfl), h]

/-! ### Sending -/

/-- Whether an operation panicked. -/
def ConnOut.panics : ConnOut → Bool
  | .unit => false
  | .pn _ r => r.isPanic
  | .initial r => r.isPanic
  | .handshake r => r.isPanic

theorem getNextPn_follows {c : Connection} {sp : PnSpace} (h : (c.getNextPn .debug sp).1.isPanic = false) :
    c.getNextPn .release sp = c.getNextPn .debug sp := by
  unfold Connection.getNextPn at h ⊢
  dsimp only at h ⊢
  rw [addU64_follows]
  rcases e : addU64 .debug (c.pnInfo sp).nextPn 1 with t | t | t
  · rfl
  · rfl
  · rw [e] at h; cases h
theorem step_follows {c : Connection} {op : ConnOp} (h : (c.step .debug op).1.panics = false) : c.step .release op = c.step .debug op := by
  have key : ∀ sp, ((c.getNextPn .debug sp).1.isPanic = true → (c.step .debug op).1.panics = true ∨ op.space ≠ some sp) →
      (op.space = some sp → c.getNextPn .release sp = c.getNextPn .debug sp) := by
    intro sp h1 h2
    apply getNextPn_follows
    cases e : (c.getNextPn .debug sp).1.isPanic with
    | false => rfl
    | true => rcases h1 e with h3 | h3
              · rw [h] at h3; cases h3
              · exact absurd h2 h3
  cases op with
  | setScid a b => rfl
  | nextPn sp =>
    simp only [Connection.step, key sp (fun e => Or.inl e) rfl]
  | buildInitial fs t =>
    have := key .initial (fun e => Or.inl (by
      simp only [Connection.step, PacketInitial.new, ConnOut.panics]
      rcases e2 : c.getNextPn .debug .initial with ⟨o, c'⟩
      rw [e2] at e
      cases o with
      | ok a => cases e
      | err a => cases e
      | panic a => rfl)) rfl
    simp only [Connection.step, PacketInitial.new, this]
  | buildHandshake fs =>
    have := key .handshake (fun e => Or.inl (by
      simp only [Connection.step, PacketHandshake.new, ConnOut.panics]
      rcases e2 : c.getNextPn .debug .handshake with ⟨o, c'⟩
      rw [e2] at e
      cases o with
      | ok a => cases e
      | err a => cases e
      | panic a => rfl)) rfl
    simp only [Connection.step, PacketHandshake.new, this]

/-- C73, sending. Over any history of a connection in which the debug build does not panic, the release build returns the same results, packet
numbers and packets included, and leaves the same connection. -/
theorem C73_run_release (c : Connection) (ops : List ConnOp) (h : ∀ o ∈ (c.run .debug ops).1, o.panics = false) :
    c.run .release ops = c.run .debug ops := by
  induction ops generalizing c with
  | nil => rfl
  | cons op ops ih =>
    simp only [Connection.run] at h ⊢
    rw [step_follows (h _ (List.mem_cons_self ..)), ih _ fun o ho => h o (List.mem_cons_of_mem _ ho)]

/-- An Initial packet with a length field of zero. -/
def C73_datagram : Bytes := [0xc3, 0, 0, 0, 1, 8, 1, 2, 3, 4, 5, 6, 7, 8, 0, 0, 0] ++ List.replicate 24 0

/-- The bound on the debug side is needed: there is a datagram a debug build panics on while a release build reports an error. -/
theorem C73_differ : ∃ P bp c, Connection.Reachable P bp c ∧ ∃ s : Stream, (decodePackets .debug c s).1.isPanic = true ∧
    ∃ e, (decodePackets .release c s).1 = .err e := by
  refine ⟨Spec.toy, .debug, exConn, exConn_reachable, makeResultStream C73_datagram, by decide +kernel, ?_⟩
  cases e : (decodePackets .release exConn (makeResultStream C73_datagram)).1 with
  | err w => exact ⟨w, rfl⟩
  | ok x =>
    have : (match (decodePackets .release exConn (makeResultStream C73_datagram)).1 with | .err _ => true | _ => false) = true := by decide +kernel
    rw [e] at this; cases this
  | panic x =>
    have : (match (decodePackets .release exConn (makeResultStream C73_datagram)).1 with | .err _ => true | _ => false) = true := by decide +kernel
    rw [e] at this; cases this

/-- Non-trivial instances: a datagram both builds decode, and a history neither panics in. -/
example : (decodePackets .debug exConn (makeResultStream (exOut 4))).1.isOk = true ∧ (decodePackets .release exConn (makeResultStream (exOut 4))).1.isOk = true ∧
    (makeResultStream (exOut 4)).length < 2 ^ 63 ∧ (∀ o ∈ (exClient.run .debug exOps).1, o.panics = false) ∧ exOps ≠ [] := by
  decide +kernel

end QuicSea
