import Verif.Props.Mend
/-
C151, where: the payloads refused for what they contain, by their bytes.
-/
namespace Spec
open QuicSea
/-- The bytes begin with a frame type whose value modulo 256 is above 0x1e (the code looks at no more of it, C15), or with a NEW_CONNECTION_ID frame whose
connection id length is not in 1..20 (RFC 9000 section 19.15). -/
def BadStart (a : Bytes) : Prop :=
  (∃ ty t r, a = ty ++ r ∧ IsVarInt ty t ∧ 0x1e < t % 256) ∨
  (∃ ty t s1 n1 s2 n2 len r, a = ty ++ (s1 ++ (s2 ++ ([len] ++ r))) ∧ IsVarInt ty t ∧ t % 256 = 0x18 ∧ IsVarInt s1 n1 ∧ IsVarInt s2 n2 ∧
    (len.toNat = 0 ∨ 20 < len.toNat))
end Spec
namespace QuicSea
open Spec
/-- On bytes a reader refuses nothing for its contents (and leaves bytes). -/
def Never (r : Rd α) : Prop := ∀ a : Bytes,
  (∀ x t, r (makeResultStream a) = (.ok x, t) → ∃ c, t = makeResultStream c) ∧ ∀ e t, r (makeResultStream a) = (.err e, t) → ¬ BadContent e
theorem Never.pure (x : α) : Never (Pure.pure x : Rd α) := by
  intro a
  refine ⟨fun y t e => ?_, fun e t h => ?_⟩
  · have e : (Out.ok x, makeResultStream a) = (Out.ok y, t) := e
    exact ⟨a, by simp at e; exact e.2.symm⟩
  · have h : (Out.ok x, makeResultStream a) = (Out.err e, t) := h
    simp at h
theorem Never.bind {m : Rd α} {f : α → Rd β} (hm : Never m) (hf : ∀ x, Never (f x)) : Never (m >>= f) := by
  intro a
  have h1 := hm a
  rw [Rd.bind_apply]
  rcases h : m (makeResultStream a) with ⟨o, t⟩
  cases o with
  | ok x => obtain ⟨c, rfl⟩ := h1.1 x t h; exact hf x c
  | err e =>
    refine ⟨fun x t' h' => by simp at h', fun e' t' h' => ?_⟩
    obtain ⟨rfl, rfl⟩ : e = e' ∧ t = t' := by simpa using h'
    exact h1.2 e t h
  | panic w => exact ⟨fun x t' h' => by simp at h', fun e' t' h' => by simp at h'⟩
theorem Never.ite {c : Prop} [Decidable c] {x y : Rd α} (hx : c → Never x) (hy : ¬ c → Never y) : Never (if c then x else y) := by
  split
  · exact hx ‹_›
  · exact hy ‹_›
theorem never_next {m : String} (h : ¬ BadContent (.internalError m)) : Never (nextOr m) := by
  intro a
  cases a with
  | nil =>
    refine ⟨fun x t h' => by simp [nextOr, makeResultStream] at h', fun e t h' => ?_⟩
    have h' : (Out.err (.internalError m) : Out U8) = .err e ∧ [] = t := by simpa [nextOr, makeResultStream] using h'
    cases h'.1; exact h
  | cons c a =>
    refine ⟨fun x t h' => ⟨a, ?_⟩, fun e t h' => ?_⟩
    · have h' : (Out.ok c, makeResultStream a) = (Out.ok x, t) := h'
      simp at h'; exact h'.2.symm
    · have h' : (Out.ok c, makeResultStream a) = (Out.err e, t) := h'
      simp at h'
theorem never_lift {x : Out α} (h : ∀ e, x = .err e → ¬ BadContent e) : Never (Rd.lift x) := by
  intro a
  refine ⟨fun y t h' => ⟨a, ?_⟩, fun e t h' => ?_⟩ <;> simp only [Rd.lift, Prod.mk.injEq] at h'
  · exact h'.2.symm
  · exact h e h'.1
theorem never_varIntLoop (n : Nat) (x : U64) : Never (varIntLoop n x) := by
  induction n generalizing x with
  | zero => exact .pure _
  | succ n ih => exact (never_next (by simp [BadContent])).bind fun _ => ih _
theorem never_varInt : Never varIntFromStream := (never_next (by simp [BadContent])).bind fun _ => never_varIntLoop _ _
theorem never_varBytes (n : Nat) : Never (varBytesFromStream n) := by
  induction n with
  | zero => exact .pure _
  | succ n ih => exact (never_next (by simp [BadContent])).bind fun _ => ih.bind fun _ => .pure _
theorem never_readArray {m : String} (h : ¬ BadContent (.internalError m)) (n : Nat) : Never (readArray m n) := by
  induction n with
  | zero => exact .pure _
  | succ n ih => exact (never_next h).bind fun _ => ih.bind fun _ => .pure _
theorem never_uint {m : String} (h : ¬ BadContent (.internalError m)) (n : Nat) : Never (uintFromDatagram n m) :=
  (never_readArray h n).bind fun bs => (never_lift fun e he => by
    unfold decodeUInt at he
    split at he
    · cases he; exact h
    · cases he).bind fun _ => .pure _
theorem never_u160Loop {m : String} (h : ¬ BadContent (.internalError m)) (n : Nat) (x : U32) (y : U128) : Never (u160Loop m n x y) := by
  induction n generalizing x y with
  | zero => exact .pure _
  | succ n ih => exact (never_next h).bind fun _ => ih _ _
theorem never_ackRange : Never AckRange.fromDatagram := never_varInt.bind fun _ => never_varInt.bind fun _ => .pure _
theorem never_ackRanges (n : Nat) : Never (FrameAck.rangesFromDatagram n) := by
  induction n with
  | zero => exact .pure _
  | succ n ih => exact never_ackRange.bind fun _ => ih.bind fun _ => .pure _
theorem never_ecn : Never EcnCounts.fromDatagram :=
  never_varInt.bind fun _ => never_varInt.bind fun _ => never_varInt.bind fun _ => .pure _
theorem never_ack (tb : U8) : Never (FrameAck.fromDatagram tb) :=
  never_varInt.bind fun _ => never_varInt.bind fun _ => never_varInt.bind fun _ => never_varInt.bind fun _ =>
  (never_ackRanges _).bind fun _ => .ite (fun _ => never_ecn.bind fun _ => (Never.pure _).bind fun _ => .pure _)
    fun _ => (Never.pure _).bind fun _ => .pure _
theorem never_connectionClose (tb : U8) : Never (FrameConnectionClose.fromDatagram tb) :=
  never_varInt.bind fun _ => .ite
    (fun _ => never_varInt.bind fun _ => (Never.pure _).bind fun _ => never_varInt.bind fun _ => (never_varBytes _).bind fun _ => .pure _)
    fun _ => (Never.pure _).bind fun _ => never_varInt.bind fun _ => (never_varBytes _).bind fun _ => .pure _
theorem never_allBytes : Never allBytesFromStream := by
  have all (a : Bytes) : allBytesFromStream (makeResultStream a) = (.ok a, []) := by
    induction a with
    | nil => rfl
    | cons c a ih => rw [makeResultStream_cons, allBytesFromStream, ih]
  intro a
  rw [all]
  exact ⟨fun x t h => ⟨[], by simp at h; exact h.2⟩, fun e t h => by simp at h⟩
theorem never_stream (tb : U8) : Never (FrameStream.fromDatagram tb) := by
  rw [stream_fromDatagram_eq]
  exact never_varInt.bind fun _ => never_allBytes.bind fun _ => .pure _
theorem never_body (tb : U8) (h1 : tb.toNat ≤ 0x1e) (h2 : tb.toNat ≠ 0x18) : Never (deserializeFrameBody tb) := by
  have v1 {α : Type} (g : U64 → α) : Never (varIntFromStream >>= fun x => pure (g x) : Rd α) := never_varInt.bind fun _ => .pure _
  have d1 {α : Type} (g : U64 → α) : Never (u64FromDatagram >>= fun x => pure (g x) : Rd α) :=
    (never_uint (by simp [BadContent]) 8).bind fun _ => .pure _
  have k {α : Type} {r : Rd α} (h : Never r) (g : α → Frame) : Never (r >>= fun x => pure (g x)) := h.bind fun _ => .pure _
  unfold deserializeFrameBody
  dsimp only
  refine .ite (fun _ => .pure _) fun _ => .ite (fun _ => .pure _) fun _ => .ite (fun _ => k (never_ack tb) _) fun _ =>
    .ite (fun _ => k (never_varInt.bind fun _ => never_varInt.bind fun _ => v1 _) _) fun _ =>
    .ite (fun _ => k (never_varInt.bind fun _ => v1 _) _) fun _ =>
    .ite (fun _ => k (never_varInt.bind fun _ => never_varInt.bind fun _ => (never_varBytes _).bind fun _ => .pure _) _) fun _ =>
    .ite (fun _ => k (never_varInt.bind fun _ => (never_varBytes _).bind fun _ => .pure _) _) fun _ =>
    .ite (fun _ => k (never_stream tb) _) fun _ =>
    .ite (fun _ => k (v1 _) _) fun _ => .ite (fun _ => k (never_varInt.bind fun _ => v1 _) _) fun _ => .ite (fun _ => k (v1 _) _) fun _ =>
    .ite (fun _ => k (v1 _) _) fun _ => .ite (fun _ => k (never_varInt.bind fun _ => v1 _) _) fun _ => .ite (fun _ => k (v1 _) _) fun _ =>
    .ite (fun h => absurd h h2) fun _ => .ite (fun _ => k (v1 _) _) fun _ =>
    .ite (fun _ => k (d1 _) _) fun _ => .ite (fun _ => k (d1 _) _) fun _ =>
    .ite (fun _ => k (never_connectionClose tb) _) fun _ => .ite (fun _ => .pure _) fun _ => by omega
/-- After a `Never` reader, a refusal for contents comes from what follows it. -/
theorem refused_later {m : Rd α} {f : α → Rd β} (hm : Never m) {a : Bytes} {e : Error} {t : Stream} (he : BadContent e)
    (h : (m >>= f) (makeResultStream a) = (.err e, t)) : ∃ x c, m (makeResultStream a) = (.ok x, makeResultStream c) ∧
      f x (makeResultStream c) = (.err e, t) := by
  rw [Rd.bind_apply] at h
  rcases h' : m (makeResultStream a) with ⟨o, t'⟩
  rw [h'] at h
  cases o with
  | ok x => obtain ⟨c, rfl⟩ := (hm a).1 x t' h'; exact ⟨x, c, rfl, h⟩
  | err e' =>
    have : e' = e ∧ t' = t := by simpa using h
    exact absurd (this.1 ▸ he) ((hm a).2 _ _ h')
  | panic w => simp at h
theorem varInt_split {a c : Bytes} {x : U64} (h : varIntFromStream (makeResultStream a) = (.ok x, makeResultStream c)) :
    ∃ b, a = b ++ c ∧ IsVarInt b x.toNat := by
  obtain ⟨b, e, hb⟩ := varInt_sound _ _ _ h
  rw [← makeResultStream_append] at e
  exact ⟨b, makeResultStream_inj e, hb⟩
theorem refused_newConnectionId {a : Bytes} {e : Error} {t : Stream} (he : BadContent e)
    (h : FrameNewConnectionId.fromDatagram (makeResultStream a) = (.err e, t)) :
    ∃ s1 n1 s2 n2 len r, a = s1 ++ (s2 ++ ([len] ++ r)) ∧ IsVarInt s1 n1 ∧ IsVarInt s2 n2 ∧ (len.toNat = 0 ∨ 20 < len.toNat) := by
  obtain ⟨x, c, h1, h3⟩ := refused_later never_varInt he h
  obtain ⟨y, d, h2, h4⟩ := refused_later never_varInt he h3
  clear h h3
  obtain ⟨s1, rfl, w1⟩ := varInt_split h1
  obtain ⟨s2, rfl, w2⟩ := varInt_split h2
  cases d with
  | nil =>
    have h : ((Out.err (.internalError "not enough bytes for u8") : Out FrameNewConnectionId), ([] : Stream)) = (.err e, t) := h4
    simp only [Prod.mk.injEq, Out.err.injEq] at h
    rw [← h.1] at he
    simp [BadContent] at he
  | cons len r =>
    refine ⟨s1, _, s2, _, len, r, rfl, w1, w2, ?_⟩
    rw [show makeResultStream (len :: r) = makeResultStream [len] ++ makeResultStream r from rfl, Rd.bind_ok (u8_reads len _)] at h4
    by_cases hl : 1 > len.toNat ∨ len.toNat > 20
    · omega
    · rw [if_neg hl] at h4
      exact absurd he ((((never_u160Loop (by simp [BadContent]) _ _ _).bind fun _ => (never_uint (by simp [BadContent]) 16).bind fun _ => .pure _) r).2 _ _ h4)
theorem refused_start {a : Bytes} {e : Error} {t : Stream} (he : BadContent e) (h : deserializeFrame (makeResultStream a) = (.err e, t)) :
    BadStart a := by
  obtain ⟨x, c, h1, h4⟩ := refused_later never_varInt he h
  clear h
  obtain ⟨ty, rfl, w⟩ := varInt_split h1
  have hm := type_mask x
  generalize ((x &&& (((1 : U64) <<< 8) - 1)).setWidth 8 : U8) = tb at hm h4
  by_cases g1 : 0x1e < tb.toNat
  · exact .inl ⟨ty, x.toNat, c, rfl, w, hm ▸ g1⟩
  · by_cases g2 : tb.toNat = 0x18
    · right
      have htb : tb = 0x18 := BitVec.eq_of_toNat_eq g2
      subst htb
      have h : (FrameNewConnectionId.fromDatagram >>= fun x => pure (Frame.newConnectionId x)) (makeResultStream c) = (.err e, t) := h4
      have h' : FrameNewConnectionId.fromDatagram (makeResultStream c) = (.err e, t) := by
        rw [Rd.bind_apply] at h
        rcases hx : FrameNewConnectionId.fromDatagram (makeResultStream c) with ⟨o, t'⟩
        rw [hx] at h
        cases o with
        | ok y => have h : (Out.ok (Frame.newConnectionId y), t') = (Out.err e, t) := h; simp at h
        | err e' => simpa using h
        | panic w => simp at h
      obtain ⟨s1, n1, s2, n2, len, r, rfl, w1, w2, hl⟩ := refused_newConnectionId he h'
      exact ⟨ty, x.toNat, s1, n1, s2, n2, len, r, rfl, w, by rw [← hm]; rfl, w1, w2, hl⟩
    · exact absurd he ((never_body tb (by omega) g2 c).2 _ _ h4)
theorem start_refused {a : Bytes} (h : BadStart a) : ∃ e, BadContent e ∧ (deserializeFrames (makeResultStream a)).1 = .err e := by
  have wrap {e : Error} {t : Stream} (hne : a ≠ []) (hd : deserializeFrame (makeResultStream a) = (.err e, t)) :
      (deserializeFrames (makeResultStream a)).1 = .err e := by
    rw [frames_step _ (by simp [makeResultStream, hne]), Rd.bind_apply, hd]
  rcases h with ⟨ty, t, r, rfl, w, ht⟩ | ⟨ty, t, s1, n1, s2, n2, len, r, rfl, w, ht, w1, w2, hl⟩
  · refine ⟨_, .inl rfl, wrap (t := makeResultStream r) (by simp [varInt_ne w]) ?_⟩
    rw [makeResultStream_append]
    exact C15_unknown_rejected_partial ty t _ w ht
  · refine ⟨_, .inr rfl, wrap (t := makeResultStream r) (by simp [varInt_ne w]) ?_⟩
    have val {b : Bytes} {n : Nat} (h : IsVarInt b n) : (BitVec.ofNat 64 n).toNat = n := by
      rw [BitVec.toNat_ofNat]; exact Nat.mod_eq_of_lt (Nat.lt_trans h.lt (by decide))
    have rd {b : Bytes} {n : Nat} (h : IsVarInt b n) := varInt_reads (v := BitVec.ofNat 64 n) (bs := b) (by rw [val h]; exact h)
    unfold deserializeFrame
    simp only [makeResultStream_append]
    rw [Rd.bind_ok (rd w _)]
    have hm := type_mask (BitVec.ofNat 64 t)
    rw [val w, ht] at hm
    rw [show ((BitVec.ofNat 64 t &&& (((1 : U64) <<< 8) - 1)).setWidth 8 : U8) = 0x18 from BitVec.eq_of_toNat_eq hm]
    refine (Rd.bind_err (m := FrameNewConnectionId.fromDatagram) ?_ : _)
    unfold FrameNewConnectionId.fromDatagram
    rw [Rd.bind_ok (rd w1 _), Rd.bind_ok (rd w2 _), Rd.bind_ok (u8_reads _ _), if_pos (by omega)]
    rfl
/-- C151, where: no bytes can complete a payload exactly if after some frames, the last of which is not a STREAM frame, comes an unknown type or a NEW_CONNECTION_ID frame with a bad length. -/
theorem C151_where (a : Bytes) :
    (∀ b, ∃ e, (deserializeFrames (makeResultStream (a ++ b))).1 = .err e) ↔
      ∃ before rest fs, a = before ++ rest ∧ (deserializeFrames (makeResultStream before)).1 = .ok fs ∧ (∀ x, fs.getLast? ≠ some (.stream x)) ∧ BadStart rest := by
  rw [C151_exact]
  constructor
  · rintro ⟨e, he, h⟩
    generalize hn : a.length = n
    induction n using Nat.strongRecOn generalizing a with
    | _ n ih =>
      by_cases ha : a = []
      · subst ha; rw [show makeResultStream [] = [] from rfl, frames_nil] at h; simp at h
      have ha0 : makeResultStream a ≠ [] := by simp [makeResultStream, ha]
      rcases hd : deserializeFrame (makeResultStream a) with ⟨o, t⟩
      cases o with
      | ok f =>
        rw [frames_cons ha0 hd] at h
        have hf : (deserializeFrames t).1 = .err e := by
          rcases hx : (deserializeFrames t).1 with _ | _ | _ <;> rw [hx] at h <;> simp_all [afterFrames]
        obtain ⟨x, tb, b, e1, w, hb⟩ := frame_sound hd
        obtain ⟨c, rfl⟩ : ∃ c, t = makeResultStream c := by
          obtain ⟨_, a1, -, -, q⟩ := List.map_eq_append_iff.1 e1
          obtain ⟨_, a2, -, -, q⟩ := List.map_eq_append_iff.1 q
          exact ⟨a2, q.symm⟩
        have hlt : c.length < n := by have := frame_consumes hd; simpa [makeResultStream, hn] using this
        obtain ⟨before, rest, fs, rfl, hp, hl, hbad⟩ := ih _ hlt c hf rfl
        rw [← makeResultStream_append, ← makeResultStream_append] at e1
        have e2 := makeResultStream_inj e1
        subst e2
        have hb' : CodeBody f (x.toNat % 256) b (makeResultStream before) ∧ ∀ y, f ≠ .stream y := by
          generalize x.toNat % 256 = k at hb
          generalize hr : makeResultStream (before ++ rest) = r at hb
          cases hb with
          | std h1 h2 h3 => exact ⟨.std h1 h2 h3, by
            rintro y rfl
            cases h1 true
            exact h3 ⟨by omega, by split <;> split <;> split <;> omega⟩⟩
          | crypto h1 h2 h3 => exact ⟨.crypto h1 h2 h3, by simp⟩
          | stream h1 h2 h3 => rw [hr, frames_nil] at hf; simp at hf
        have hd' := frame_complete w hb'.1
        rw [← makeResultStream_append, ← makeResultStream_append] at hd'
        refine ⟨tb ++ (b ++ before), rest, f :: fs, by simp, ?_, ?_, hbad⟩
        · rw [frames_cons (by simp [makeResultStream, varInt_ne w]) hd', hp]; rfl
        · cases fs with
          | nil => intro y q; simp at q; exact hb'.2 y q
          | cons g gs => intro y q; exact hl y (by simpa [List.getLast?_cons_cons] using q)
      | err e' =>
        have : e' = e := by rw [frames_step _ ha0, Rd.bind_apply, hd] at h; simpa using h
        subst this
        exact ⟨[], a, [], rfl, rfl, by simp, refused_start he hd⟩
      | panic w => rw [frames_step _ ha0, Rd.bind_apply, hd] at h; simp at h
  · rintro ⟨before, rest, fs, rfl, hp, hl, hb⟩
    obtain ⟨e, he, h⟩ := start_refused hb
    refine ⟨e, he, ?_⟩
    rw [makeResultStream_append, C144_follow_partial before fs hp hl, h]; rfl

/-- A case: MAX_DATA, PING, then a NEW_CONNECTION_ID frame without a connection id. -/
example : ∃ before rest fs, ([0x10, 0x07, 0x01, 0x18, 0x05, 0x02, 0] : Bytes) = before ++ rest ∧ (deserializeFrames (makeResultStream before)).1 = .ok fs ∧
    (∀ x, fs.getLast? ≠ some (.stream x)) ∧ BadStart rest :=
  ⟨[0x10, 0x07, 0x01], [0x18, 0x05, 0x02, 0], [.maxData ⟨7⟩, .ping], rfl, by decide +kernel, by simp,
    .inr ⟨[0x18], 0x18, [0x05], 5, [0x02], 2, 0, [], rfl, isVarInt_one 0x18 (by decide), by decide, isVarInt_one 5 (by decide), isVarInt_one 2 (by decide), by decide⟩⟩
end QuicSea
