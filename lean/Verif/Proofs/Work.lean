import Verif.Model.Work
import Verif.Props.Bounds
import Verif.Props.Local
/-
The counting readers (`Verif.Model.Work`) give the results of the readers, and the work they do is paid for by the bytes they take.
-/
namespace QuicSea
open Spec

/-- `m` does what `r` does, and takes no more work than `K` for each byte taken and `a` besides (`b` more when it fails); when it succeeds with `x`, at least `φ x` less. Each byte taken is counted. -/
def Cost (K a : Nat) (φ : α → Nat) (b : Nat) (m : Tk α) (r : Rd α) : Prop := ∀ s,
  (m s).1 = (r s).1 ∧ (m s).2.1 = (r s).2 ∧ (r s).2.length ≤ s.length ∧
  (∀ x, (r s).1 = .ok x → (m s).2.2 + K * (r s).2.length + φ x ≤ K * s.length + a) ∧ (m s).2.2 + K * (r s).2.length ≤ K * s.length + a + b ∧
  s.length ≤ (r s).2.length + (m s).2.2

theorem Tk.bind_apply (m : Tk α) (f : α → Tk β) (s : Stream) :
    (m >>= f) s = match m s with
      | (.ok a, s', n) => ((f a s').1, (f a s').2.1, n + (f a s').2.2)
      | (.err e, s', n) => (.err e, s', n)
      | (.panic w, s', n) => (.panic w, s', n) := rfl

variable {K a b : Nat}

theorem Cost.bind {a' : Nat} {φ : α → Nat} {ψ : β → Nat} {m : Tk α} {r : Rd α} {f : α → Tk β} {g : α → Rd β} (h1 : Cost K a φ b m r)
    (h2 : ∀ x, Cost K (a' + φ x) ψ b (f x) (g x)) : Cost K (a + a') ψ b (m >>= f) (r >>= g) := by
  intro s
  obtain ⟨e1, e2, e3, e4, e5, e6⟩ := h1 s
  rcases hm : m s with ⟨o, s1, n⟩
  rw [hm] at e1 e2 e4 e5 e6
  dsimp only at e1 e2 e4 e5 e6
  have hr : r s = (o, s1) := by rw [e1, e2]
  rw [Tk.bind_apply, hm, Rd.bind_apply, hr]
  rw [hr] at e3 e4 e5 e6
  dsimp only at e3 e4 e5 e6
  cases o with
  | ok x =>
    obtain ⟨g1, g2, g3, g4, g5, g6⟩ := h2 x s1
    have := e4 x rfl
    dsimp only
    refine ⟨g1, g2, by omega, fun y hy => ?_, by omega, by omega⟩
    have := g4 y hy
    omega
  | err e => exact ⟨rfl, rfl, e3, fun _ h => (by cases h), by dsimp only; omega, by dsimp only; omega⟩
  | panic e => exact ⟨rfl, rfl, e3, fun _ h => (by cases h), by dsimp only; omega, by dsimp only; omega⟩

theorem Cost.weaken {a' : Nat} {φ ψ : α → Nat} {m : Tk α} {r : Rd α} (h : Cost K a φ b m r) (h1 : a ≤ a') (h2 : ∀ x, ψ x + a ≤ φ x + a') : Cost K a' ψ b m r := by
  intro s
  obtain ⟨e1, e2, e3, e4, e5, e6⟩ := h s
  refine ⟨e1, e2, e3, fun x hx => ?_, by omega, e6⟩
  have := e4 x hx
  have := h2 x
  omega
theorem Cost.mono {a' : Nat} {φ : α → Nat} {m : Tk α} {r : Rd α} (h : Cost K a φ b m r) (h1 : a ≤ a') : Cost K a' φ b m r := h.weaken h1 fun _ => by omega
/-- The credit of a result is not needed. -/
theorem Cost.free {φ : α → Nat} {m : Tk α} {r : Rd α} (h : Cost K a φ b m r) : Cost K a (fun _ => 0) b m r := h.weaken (Nat.le_refl _) fun _ => by omega

theorem Cost.pure {φ : α → Nat} (x : α) (h : φ x ≤ a) : Cost K a φ b (Pure.pure x) (Pure.pure x) := by
  intro s
  refine ⟨rfl, rfl, Nat.le_refl _, fun y hy => ?_, ?_, Nat.le_add_right _ _⟩
  · cases hy
    show 0 + K * s.length + φ x ≤ _
    omega
  · show 0 + K * s.length ≤ _
    omega
theorem Cost.pure0 (x : α) : Cost K a (fun _ => 0) b (Pure.pure x) (Pure.pure x) := .pure x (Nat.zero_le _)
theorem Cost.fail {φ : α → Nat} (e : Error) : Cost K a φ b (Tk.fail e) (Rd.fail e) := by
  intro s
  refine ⟨rfl, rfl, Nat.le_refl _, fun y hy => (by cases hy), ?_, Nat.le_add_right _ _⟩
  show 0 + K * s.length ≤ _
  omega
theorem Cost.work {φ : α → Nat} {n : Nat} {x : Out α} (h : n ≤ a) (hx : ∀ y, x = .ok y → n + φ y ≤ a) : Cost K a φ b (Tk.work n x) (Rd.lift x) := by
  intro s
  refine ⟨rfl, rfl, Nat.le_refl _, fun y hy => ?_, ?_, Nat.le_add_right _ _⟩
  · have := hx y hy
    show n + K * s.length + φ y ≤ _
    omega
  · show n + K * s.length ≤ _
    omega
theorem Cost.lift {φ : α → Nat} {x : Out α} (hx : ∀ y, x = .ok y → φ y ≤ a) : Cost K a φ b (Tk.lift x) (Rd.lift x) :=
  Cost.work (n := 0) (Nat.zero_le _) fun y hy => by have := hx y hy; omega
theorem Cost.lift_bind {ψ : β → Nat} {x : Out α} {f : α → Tk β} {g : α → Rd β} (h : ∀ y, x = .ok y → Cost K a ψ b (f y) (g y)) :
    Cost K a ψ b (Tk.lift x >>= f) (Rd.lift x >>= g) := by
  intro s
  rw [Tk.bind_apply, Rd.bind_apply]
  unfold Tk.lift Rd.lift
  cases x with
  | ok y =>
    obtain ⟨g1, g2, g3, g4, g5, g6⟩ := h y rfl s
    dsimp only
    exact ⟨g1, g2, g3, fun z hz => by have := g4 z hz; omega, by omega, by omega⟩
  | err e => exact ⟨rfl, rfl, Nat.le_refl _, fun _ h => (by cases h), by dsimp only; omega, by dsimp only; omega⟩
  | panic e => exact ⟨rfl, rfl, Nat.le_refl _, fun _ h => (by cases h), by dsimp only; omega, by dsimp only; omega⟩
theorem Cost.cloned_bind {ψ : β → Nat} {f : Stream → Tk β} {g : Stream → Rd β} (h : ∀ o, Cost K a ψ b (f o) (g o)) : Cost K a ψ b (Tk.cloned >>= f) (Rd.cloned >>= g) := by
  intro s
  obtain ⟨g1, g2, g3, g4, g5, g6⟩ := h s s
  rw [Tk.bind_apply, Rd.bind_apply]
  unfold Tk.cloned Rd.cloned
  exact ⟨g1, g2, g3, fun z hz => by have := g4 z hz; dsimp only; omega, by dsimp only; omega, by dsimp only; omega⟩
/-- A reader on another stream, at a cost known beforehand. -/
theorem Cost.on {φ : α → Nat} {n : Nat} {m : Tk α} {r : Rd α} {o : Stream} (h1 : (m o).1 = (r o).1) (h2 : (m o).2.2 ≤ n) (hx : ∀ y, (r o).1 = .ok y → n + φ y ≤ a) (hn : n ≤ a) :
    Cost K a φ b (m.on o) (Rd.lift (r o).1) := by
  intro s
  refine ⟨h1, rfl, Nat.le_refl _, fun y hy => ?_, ?_, Nat.le_add_right _ _⟩
  · have := hx y hy
    show (m o).2.2 + K * s.length + φ y ≤ _
    omega
  · show (m o).2.2 + K * s.length ≤ _
    omega
theorem Cost.ite {c : Prop} [Decidable c] {φ : α → Nat} {m m' : Tk α} {r r' : Rd α} (h1 : Cost K a φ b m r) (h2 : Cost K a φ b m' r') :
    Cost K a φ b (if c then m else m') (if c then r else r') := by
  by_cases h : c
  · rw [if_pos h, if_pos h]; exact h1
  · rw [if_neg h, if_neg h]; exact h2
theorem Cost.ite_dep {c : Prop} [Decidable c] {φ : α → Nat} {m m' : Tk α} {r r' : Rd α} (h1 : c → Cost K a φ b m r) (h2 : ¬ c → Cost K a φ b m' r') :
    Cost K a φ b (if c then m else m') (if c then r else r') := by
  by_cases h : c
  · rw [if_pos h, if_pos h]; exact h1 h
  · rw [if_neg h, if_neg h]; exact h2 h

theorem Cost.pure_bind {ψ : β → Nat} {x : α} {f : α → Tk β} {g : α → Rd β} (h : Cost K a ψ b (f x) (g x)) :
    Cost K a ψ b (Pure.pure x >>= f) (Pure.pure x >>= g) :=
  Cost.lift_bind (x := .ok x) fun y e => by cases e; exact h

/-- A step whose cost is paid by the bytes it takes. -/
theorem Cost.seq {φ : α → Nat} {ψ : β → Nat} {m : Tk α} {r : Rd α} {f : α → Tk β} {g : α → Rd β} (h1 : Cost K 0 φ b m r)
    (h2 : ∀ x, Cost K (a + φ x) ψ b (f x) (g x)) : Cost K a ψ b (m >>= f) (r >>= g) := by
  have := Cost.bind h1 h2
  rw [Nat.zero_add] at this
  exact this
/-- A step that leaves its credit to what follows. -/
theorem Cost.give {φ : α → Nat} {ψ : β → Nat} {m : Tk α} {r : Rd α} {f : α → Tk β} {g : α → Rd β} (h1 : Cost K a φ b m r) (h2 : ∀ x, Cost K (φ x) ψ b (f x) (g x)) :
    Cost K a ψ b (m >>= f) (r >>= g) :=
  (Cost.bind (a' := 0) h1 fun x => (h2 x).mono (by omega)).mono (Nat.le_refl _)
/-- A step of known cost. -/
theorem Cost.pay {n : Nat} {ψ : β → Nat} {m : Tk α} {r : Rd α} {f : α → Tk β} {g : α → Rd β} (h1 : Cost K n (fun _ => 0) b m r) (hn : n ≤ a)
    (h2 : ∀ x, Cost K (a - n) ψ b (f x) (g x)) : Cost K a ψ b (m >>= f) (r >>= g) :=
  (Cost.bind (a' := a - n) h1 h2).mono (by omega)
/-- The same, leaving the credit of the result. -/
theorem Cost.seq0 {φ : α → Nat} {ψ : β → Nat} {m : Tk α} {r : Rd α} {f : α → Tk β} {g : α → Rd β} (h1 : Cost K 0 φ b m r)
    (h2 : ∀ x, Cost K a ψ b (f x) (g x)) : Cost K a ψ b (m >>= f) (r >>= g) :=
  Cost.seq h1 fun x => (h2 x).mono (by omega)

/-! ### utils.rs -/

theorem nextOr_cost (k : Nat) (msg : String) : Cost (k + 1) 0 (fun _ => k) 1 (nextOrT msg) (nextOr msg) := by
  intro s
  cases s with
  | nil => exact ⟨rfl, rfl, Nat.le_refl _, fun _ h => (by cases h), by simp [nextOrT, nextOr]⟩
  | cons x s =>
    cases x with
    | ok x =>
      refine ⟨rfl, rfl, by simp [nextOr], fun _ h => ?_, ?_⟩ <;> (simp only [nextOrT, nextOr, List.length_cons, Nat.mul_succ]; omega)
    | error e =>
      refine ⟨rfl, rfl, by simp [nextOr], fun _ h => (by cases h), ?_⟩; simp only [nextOrT, nextOr, List.length_cons, Nat.mul_succ]; omega

theorem readArray_cost (k : Nat) (msg : String) (n : Nat) : Cost (k + 1) 0 (fun _ => 0) 1 (readArrayT msg n) (readArray msg n) := by
  induction n with
  | zero => exact .pure0 _
  | succ n ih => exact .seq0 (nextOr_cost k msg) fun _ => .seq0 ih fun _ => .pure0 _
theorem u8_cost (k : Nat) : Cost (k + 1) 0 (fun _ => 0) 1 u8FromDatagramT u8FromDatagram :=
  .seq0 (readArray_cost k _ _) fun _ => .lift_bind fun _ _ => .pure0 _
theorem uint_cost (k size : Nat) (msg : String) : Cost (k + 1) 0 (fun _ => 0) 1 (uintFromDatagramT size msg) (uintFromDatagram size msg) :=
  .seq0 (readArray_cost k _ _) fun _ => .lift_bind fun _ _ => .pure0 _
theorem u160Loop_cost (k : Nat) (msg : String) (n : Nat) (x : U32) (y : U128) : Cost (k + 1) 0 (fun _ => 0) 1 (u160LoopT msg n x y) (u160Loop msg n x y) := by
  induction n generalizing x y with
  | zero => exact .pure0 _
  | succ n ih => exact .seq0 (nextOr_cost k msg) fun _ => ih _ _
theorem varIntWithBytesLoop_cost (k n : Nat) (x : U64) (bs : Bytes) :
    Cost (k + 2) bs.length (fun r => r.2.length) 1 (varIntWithBytesLoopT n x bs) (varIntWithBytesLoop n x bs) := by
  induction n generalizing x bs with
  | zero => exact .pure _ (Nat.le_refl _)
  | succ n ih => exact .seq (nextOr_cost (k + 1) _) fun _ => (ih _ _).mono (by simp)
theorem varIntWithBytes_cost (k : Nat) : Cost (k + 2) 0 (fun r => r.2.length) 1 varIntWithBytesFromStreamT varIntWithBytesFromStream :=
  .seq (nextOr_cost (k + 1) _) fun _ => (varIntWithBytesLoop_cost k _ _ _).mono (by simp)
theorem varIntLoop_cost (k n : Nat) (x : U64) : Cost (k + 1) 0 (fun _ => 0) 1 (varIntLoopT n x) (varIntLoop n x) := by
  induction n generalizing x with
  | zero => exact .pure0 _
  | succ n ih => exact .seq0 (nextOr_cost k _) fun _ => ih _
theorem varInt_cost (k : Nat) : Cost (k + 1) 0 (fun _ => 0) 1 varIntFromStreamT varIntFromStream :=
  .seq0 (nextOr_cost k _) fun _ => varIntLoop_cost k _ _
theorem varBytes_cost (k n : Nat) : Cost (k + 1) 0 (fun bs => k * bs.length) 1 (varBytesFromStreamT n) (varBytesFromStream n) := by
  induction n with
  | zero => exact .pure _ (Nat.le_refl _)
  | succ n ih => exact .seq (nextOr_cost k _) fun _ => .bind (a' := k) (ih.mono (Nat.zero_le _)) fun bs => .pure _ (by simp [Nat.mul_succ]; omega)
theorem allBytes_cost (k : Nat) : Cost (k + 1) 1 (fun bs => k * bs.length) 1 allBytesFromStreamT allBytesFromStream := by
  intro s
  induction s with
  | nil => exact ⟨rfl, rfl, Nat.le_refl _, fun x h => by cases h; simp [allBytesFromStreamT, allBytesFromStream], by simp [allBytesFromStreamT, allBytesFromStream]⟩
  | cons x s ih =>
    cases x with
    | error e => refine ⟨rfl, rfl, by simp [allBytesFromStream], fun _ h => (by cases h), ?_⟩; simp only [allBytesFromStreamT, allBytesFromStream, List.length_cons, Nat.mul_succ]; omega
    | ok x =>
      obtain ⟨e1, e2, e3, e4, e5, e6⟩ := ih
      rw [allBytesFromStreamT, allBytesFromStream]
      rcases hm : allBytesFromStreamT s with ⟨o, s1, n⟩
      rw [hm] at e1 e2 e4 e5 e6
      dsimp only at e1 e2 e4 e5 e6
      have hr : allBytesFromStream s = (o, s1) := by rw [e1, e2]
      rw [hr] at e3 e4 e5 e6 ⊢
      dsimp only at e3 e4 e5 e6
      cases o with
      | ok y =>
        have := e4 y rfl
        refine ⟨rfl, rfl, by simp; omega, fun z hz => ?_, ?_⟩
        · cases hz; simp only [List.length_cons, Nat.mul_succ] at *; omega
        · simp only [List.length_cons, Nat.mul_succ] at *; omega
      | err e => exact ⟨rfl, rfl, by simp; omega, fun _ h => (by cases h), by simp only [List.length_cons, Nat.mul_succ] at *; omega⟩
      | panic e => exact ⟨rfl, rfl, by simp; omega, fun _ h => (by cases h), by simp only [List.length_cons, Nat.mul_succ] at *; omega⟩
theorem fixedLenDcid_cost (k : Nat) : Cost (k + 1) 0 (fun _ => 0) 1 fixedLenDcidFromStreamT fixedLenDcidFromStream :=
  .seq0 (uint_cost k _ _) fun _ => .pure0 _

/-! ### frame.rs: one for each byte, and one more for a STREAM frame, which is read to the end of the payload -/

theorem varInt_cost1 : Cost 1 0 (fun _ => 0) 1 varIntFromStreamT varIntFromStream := varInt_cost 0
theorem varBytes_cost1 (n : Nat) : Cost 1 0 (fun _ => 0) 1 (varBytesFromStreamT n) (varBytesFromStream n) := (varBytes_cost 0 n).free

theorem ackRanges_cost (n : Nat) : Cost 1 0 (fun _ => 0) 1 (FrameAck.rangesFromDatagramT n) (FrameAck.rangesFromDatagram n) := by
  induction n with
  | zero => exact .pure0 _
  | succ n ih => exact .seq0 (.seq0 varInt_cost1 fun _ => .seq0 varInt_cost1 fun _ => .pure0 _) fun _ => .seq0 ih fun _ => .pure0 _
theorem ack_cost (t : U8) : Cost 1 0 (fun _ => 0) 1 (FrameAck.fromDatagramT t) (FrameAck.fromDatagram t) :=
  .seq0 varInt_cost1 fun _ => .seq0 varInt_cost1 fun _ => .seq0 varInt_cost1 fun _ => .seq0 varInt_cost1 fun _ => .seq0 (ackRanges_cost _) fun _ =>
    .ite (.seq0 (.seq0 varInt_cost1 fun _ => .seq0 varInt_cost1 fun _ => .seq0 varInt_cost1 fun _ => .pure0 _) fun _ => .pure0 _) (.pure0 _)
theorem crypto_cost : Cost 1 0 (fun _ => 0) 1 FrameCrypto.fromDatagramT FrameCrypto.fromDatagram :=
  .seq0 varInt_cost1 fun _ => .seq0 varInt_cost1 fun _ => .seq0 (varBytes_cost1 _) fun _ => .pure0 _
theorem newToken_cost : Cost 1 0 (fun _ => 0) 1 FrameNewToken.fromDatagramT FrameNewToken.fromDatagram :=
  .seq0 varInt_cost1 fun _ => .seq0 (varBytes_cost1 _) fun _ => .pure0 _
theorem stream_cost (t : U8) : Cost 1 1 (fun _ => 0) 1 (FrameStream.fromDatagramT t) (FrameStream.fromDatagram t) := by
  refine .seq0 varInt_cost1 fun i => ?_
  have h1 (o n : U64) : Cost 1 1 (fun _ => 0) 1 _ _ := Cost.seq0 (varBytes_cost1 n.toNat) fun d => .pure0 (⟨i, o, BitVec.ofNat 64 d.length, d, decide (t &&& 1 = 1)⟩ : FrameStream)
  have h2 (o : U64) : Cost 1 1 (fun _ => 0) 1 _ _ := Cost.bind (a' := 0) (allBytes_cost 0).free fun d => .pure0 (⟨i, o, BitVec.ofNat 64 d.length, d, decide (t &&& 1 = 1)⟩ : FrameStream)
  exact .ite (.seq0 varInt_cost1 fun o => .ite (.seq0 varInt_cost1 fun n => .pure_bind (h1 o n)) (.pure_bind (h2 o)))
    (.pure_bind (.ite (.seq0 varInt_cost1 fun n => .pure_bind (h1 0 n)) (.pure_bind (h2 0))))
theorem newConnectionId_cost : Cost 1 0 (fun _ => 0) 1 FrameNewConnectionId.fromDatagramT FrameNewConnectionId.fromDatagram :=
  .seq0 varInt_cost1 fun _ => .seq0 varInt_cost1 fun _ => .seq0 (u8_cost 0) fun _ => .ite (.fail _) (.seq0 (u160Loop_cost 0 _ _ _ _) fun _ => .seq0 (uint_cost 0 _ _) fun _ => .pure0 _)
theorem connectionClose_cost (t : U8) : Cost 1 0 (fun _ => 0) 1 (FrameConnectionClose.fromDatagramT t) (FrameConnectionClose.fromDatagram t) := by
  refine .seq0 varInt_cost1 fun e => ?_
  have jp (f : Option U64) := Cost.seq0 (a := 0) varInt_cost1 fun l => .seq0 (varBytes_cost1 l.toNat) fun d => .pure0 (⟨e, f, l, d, decide (t &&& 1 = 1)⟩ : FrameConnectionClose)
  exact .ite (.seq0 varInt_cost1 fun x => .pure_bind (jp (some x))) (.pure_bind (jp none))
theorem one_cost {f : U64 → α} : Cost 1 0 (fun _ => 0) 1 (varIntFromStreamT >>= fun x => pure (f x)) (varIntFromStream >>= fun x => pure (f x)) := .seq0 varInt_cost1 fun _ => .pure0 _
theorem two_cost {f : U64 → U64 → α} : Cost 1 0 (fun _ => 0) 1 (varIntFromStreamT >>= fun x => varIntFromStreamT >>= fun y => pure (f x y))
    (varIntFromStream >>= fun x => varIntFromStream >>= fun y => pure (f x y)) := .seq0 varInt_cost1 fun _ => one_cost
theorem three_cost {f : U64 → U64 → U64 → α} : Cost 1 0 (fun _ => 0) 1 (varIntFromStreamT >>= fun x => varIntFromStreamT >>= fun y => varIntFromStreamT >>= fun z => pure (f x y z))
    (varIntFromStream >>= fun x => varIntFromStream >>= fun y => varIntFromStream >>= fun z => pure (f x y z)) := .seq0 varInt_cost1 fun _ => two_cost
theorem data_cost {f : U64 → α} : Cost 1 0 (fun _ => 0) 1 (u64FromDatagramT >>= fun x => pure (f x)) (u64FromDatagram >>= fun x => pure (f x)) :=
  .seq0 (uint_cost 0 8 _) fun _ => .pure0 _

theorem Cost.wrap {m : Tk α} {r : Rd α} {f : α → β} (h : Cost 1 0 (fun _ => 0) 1 m r) : Cost 1 1 (fun _ => 0) 1 (m >>= fun x => Pure.pure (f x)) (r >>= fun x => Pure.pure (f x)) :=
  .seq0 h fun _ => .pure0 _

theorem frameBody_cost (t : U8) : Cost 1 1 (fun _ => 0) 1 (deserializeFrameBodyT t) (deserializeFrameBody t) := by
  unfold deserializeFrameBodyT deserializeFrameBody
  exact .ite (.pure0 _) <| .ite (.pure0 _) <| .ite (ack_cost t).wrap <| .ite (Cost.wrap three_cost) <| .ite (Cost.wrap two_cost) <| .ite crypto_cost.wrap <| .ite newToken_cost.wrap <|
    .ite (.bind (a' := 0) (stream_cost t) fun _ => .pure0 _) <| .ite (Cost.wrap one_cost) <| .ite (Cost.wrap two_cost) <| .ite (Cost.wrap one_cost) <| .ite (Cost.wrap one_cost) <|
    .ite (Cost.wrap two_cost) <| .ite (Cost.wrap one_cost) <| .ite newConnectionId_cost.wrap <| .ite (Cost.wrap one_cost) <| .ite (Cost.wrap data_cost) <| .ite (Cost.wrap data_cost) <|
    .ite (connectionClose_cost t).wrap <| .ite (.pure0 _) <| .fail _
theorem frame_cost : Cost 1 1 (fun _ => 0) 1 deserializeFrameT deserializeFrame := .seq0 varInt_cost1 fun _ => frameBody_cost _

/-- Frames: at most three for each byte. -/
theorem framesLoop_cost (fuel : Nat) (s : Stream) : (deserializeFramesLoopT fuel s).1 = (deserializeFramesLoop fuel s).1 ∧
    (deserializeFramesLoopT fuel s).2.1 = (deserializeFramesLoop fuel s).2 ∧ (deserializeFramesLoopT fuel s).2.2 ≤ 3 * s.length + 3 ∧
    s.length ≤ (deserializeFramesLoop fuel s).2.length + (deserializeFramesLoopT fuel s).2.2 := by
  induction fuel generalizing s with
  | zero => cases s <;> exact ⟨rfl, rfl, by simp [deserializeFramesLoopT], by simp [deserializeFramesLoop]⟩
  | succ fuel ih =>
    cases s with
    | nil => exact ⟨rfl, rfl, by simp [deserializeFramesLoopT], by simp⟩
    | cons x s =>
      simp only [deserializeFramesLoopT, deserializeFramesLoop]
      obtain ⟨e1, e2, e3, e4, e5, e6⟩ := frame_cost (x :: s)
      rcases hm : deserializeFrameT (x :: s) with ⟨o, s1, n⟩
      rw [hm] at e1 e2 e4 e5 e6
      dsimp only at e1 e2 e4 e5 e6
      have hr : deserializeFrame (x :: s) = (o, s1) := by rw [e1, e2]
      rw [hr] at e3 e4 e5 e6 ⊢
      dsimp only at e3 e4 e5 e6
      cases o with
      | ok f =>
        have hlt := frame_consumes hr
        have := e4 f rfl
        obtain ⟨i1, i2, i3, i4⟩ := ih s1
        rcases hl : deserializeFramesLoopT fuel s1 with ⟨o2, s2, n2⟩
        rw [hl] at i1 i2 i3 i4
        dsimp only at i1 i2 i3 i4
        have hr2 : deserializeFramesLoop fuel s1 = (o2, s2) := by rw [i1, i2]
        rw [hr2] at i4
        dsimp only at i4
        show (match deserializeFramesLoopT fuel s1 with
          | (Out.ok fs, s'', m) => ((Out.ok (f :: fs), s'', 1 + n + m) : Out (List Frame) × Stream × Nat)
          | (Out.err e, s'', m) => (Out.err e, s'', 1 + n + m)
          | (Out.panic w, s'', m) => (Out.panic w, s'', 1 + n + m)).1 = (match deserializeFramesLoop fuel s1 with
          | (Out.ok fs, s'') => ((Out.ok (f :: fs), s'') : Out (List Frame) × Stream)
          | r => r).1 ∧ (match deserializeFramesLoopT fuel s1 with
          | (Out.ok fs, s'', m) => ((Out.ok (f :: fs), s'', 1 + n + m) : Out (List Frame) × Stream × Nat)
          | (Out.err e, s'', m) => (Out.err e, s'', 1 + n + m)
          | (Out.panic w, s'', m) => (Out.panic w, s'', 1 + n + m)).2.1 = (match deserializeFramesLoop fuel s1 with
          | (Out.ok fs, s'') => ((Out.ok (f :: fs), s'') : Out (List Frame) × Stream)
          | r => r).2 ∧ (match deserializeFramesLoopT fuel s1 with
          | (Out.ok fs, s'', m) => ((Out.ok (f :: fs), s'', 1 + n + m) : Out (List Frame) × Stream × Nat)
          | (Out.err e, s'', m) => (Out.err e, s'', 1 + n + m)
          | (Out.panic w, s'', m) => (Out.panic w, s'', 1 + n + m)).2.2 ≤ _ ∧ _ ≤ List.length (match deserializeFramesLoop fuel s1 with
          | (Out.ok fs, s'') => ((Out.ok (f :: fs), s'') : Out (List Frame) × Stream)
          | r => r).2 + (match deserializeFramesLoopT fuel s1 with
          | (Out.ok fs, s'', m) => ((Out.ok (f :: fs), s'', 1 + n + m) : Out (List Frame) × Stream × Nat)
          | (Out.err e, s'', m) => (Out.err e, s'', 1 + n + m)
          | (Out.panic w, s'', m) => (Out.panic w, s'', 1 + n + m)).2.2
        rw [hr2, hl]
        cases o2 <;> exact ⟨rfl, rfl, by dsimp only; omega, by dsimp only; omega⟩
      | err e => exact ⟨rfl, rfl, by dsimp only; omega, by dsimp only; omega⟩
      | panic e => exact ⟨rfl, rfl, by dsimp only; omega, by dsimp only; omega⟩
theorem frames_cost (s : Stream) : (deserializeFramesT s).1 = (deserializeFrames s).1 ∧ (deserializeFramesT s).2.1 = (deserializeFrames s).2 ∧ (deserializeFramesT s).2.2 ≤ 3 * s.length + 3 ∧
    s.length ≤ (deserializeFrames s).2.length + (deserializeFramesT s).2.2 :=
  framesLoop_cost _ s

/-! ### packet.rs: five for each byte, and 70 besides -/

theorem longHeader_cost (k : Nat) (b : U8) : Cost (k + 1) 0 (fun _ => 0) 1 (LongPacketHeader.fromStreamT b) (LongPacketHeader.fromStream b) := by
  refine .seq0 (uint_cost k 4 _) fun v => ?_
  refine .seq0 (φ := fun _ => 0) ?_ fun x => ?_
  · exact .ite (.seq0 (u8_cost k) fun _ => .ite (.fail _) (.seq0 (u160Loop_cost k _ _ _ _) fun _ => .seq0 (u8_cost k) fun _ => .ite (.fail _) (.seq0 (u160Loop_cost k _ _ _ _) fun _ => .pure0 _)))
      (.seq0 (u8_cost k) fun _ => .seq0 (varBytes_cost k _) fun _ => .seq0 (u8_cost k) fun _ => .seq0 (varBytes_cost k _) fun _ => .pure0 _)
  · obtain ⟨vn, dl, d, sl, s⟩ := x
    exact .lift_bind fun _ _ => .pure0 _
theorem shortHeader_cost (k : Nat) (b : U8) : Cost (k + 1) 0 (fun _ => 0) 1 (ShortPacketHeader.fromStreamT b) (ShortPacketHeader.fromStream b) :=
  .seq0 (fixedLenDcid_cost k) fun _ => .pure0 _
theorem nextHeader_cost (k : Nat) : Cost (k + 1) 0 (fun _ => 0) 1 nextHeaderFromStreamT nextHeaderFromStream :=
  .seq0 (nextOr_cost k _) fun _ => .ite (.seq0 (longHeader_cost k _) fun _ => .pure0 _) (.seq0 (shortHeader_cost k _) fun _ => .pure0 _)

theorem Tk.bind_ticks {m : Tk α} {f : α → Tk β} {n k : Nat} (h1 : ∀ s, (m s).2.2 ≤ n) (h2 : ∀ x s, (f x s).2.2 ≤ k) (s : Stream) : ((m >>= f) s).2.2 ≤ n + k := by
  have h1 := h1 s
  rw [Tk.bind_apply]
  rcases hm : m s with ⟨o, s1, t⟩
  rw [hm] at h1
  cases o with
  | ok x => have := h2 x s1; dsimp only at *; omega
  | err e => dsimp only at *; omega
  | panic e => dsimp only at *; omega
theorem varBytes_ticks (n : Nat) (s : Stream) : (varBytesFromStreamT n s).2.2 ≤ n := by
  induction n generalizing s with
  | zero => exact Nat.le_refl _
  | succ n ih =>
    refine Nat.le_trans (Tk.bind_ticks (n := 1) (k := n) (m := nextOrT _) (fun _ => Nat.le_refl 1) (fun x => Tk.bind_ticks (f := fun bs => Tk.pure (x :: bs)) (k := 0) ih ?_) s)
      (Nat.le_of_eq (Nat.add_comm 1 n))
    exact fun _ _ => Nat.le_refl _

theorem readArray_ticks (msg : String) (n : Nat) (s : Stream) : (readArrayT msg n s).2.2 ≤ n := by
  induction n generalizing s with
  | zero => exact Nat.le_refl _
  | succ n ih =>
    refine Nat.le_trans (Tk.bind_ticks (n := 1) (k := n) (m := nextOrT _) (fun _ => Nat.le_refl 1) (fun x => Tk.bind_ticks (f := fun bs => Tk.pure (x :: bs)) (k := 0) ih ?_) s)
      (Nat.le_of_eq (Nat.add_comm 1 n))
    exact fun _ _ => Nat.le_refl _
theorem uint_ticks (size : Nat) (msg : String) (s : Stream) : (uintFromDatagramT size msg s).2.2 ≤ size :=
  Tk.bind_ticks (k := 0) (readArray_ticks msg size) (fun _ => Tk.bind_ticks (n := 0) (k := 0) (m := Tk.lift _) (fun _ => Nat.le_refl 0) fun _ _ => Nat.le_refl 0) s
theorem u8_ticks (s : Stream) : (u8FromDatagramT s).2.2 ≤ 1 :=
  Tk.bind_ticks (k := 0) (readArray_ticks _ 1) (fun _ => Tk.bind_ticks (n := 0) (k := 0) (m := Tk.lift _) (fun _ => Nat.le_refl 0) fun _ _ => Nat.le_refl 0) s
theorem u160Loop_ticks (msg : String) (n : Nat) (x : U32) (y : U128) (s : Stream) : (u160LoopT msg n x y s).2.2 ≤ n := by
  induction n generalizing x y s with
  | zero => exact Nat.le_refl _
  | succ n ih =>
    exact Nat.le_trans (Tk.bind_ticks (n := 1) (k := n) (m := nextOrT _) (fun _ => Nat.le_refl 1) (fun _ => ih _ _) s) (Nat.le_of_eq (Nat.add_comm 1 n))
theorem Tk.ite_ticks {c : Prop} [Decidable c] {m m' : Tk α} {n : Nat} (h1 : ∀ s, (m s).2.2 ≤ n) (h2 : ¬ c → ∀ s, (m' s).2.2 ≤ n) (s : Stream) : ((if c then m else m') s).2.2 ≤ n := by
  by_cases h : c
  · rw [if_pos h]; exact h1 s
  · rw [if_neg h]; exact h2 h s
theorem Tk.mono_ticks {m : Tk α} {n k : Nat} (h : ∀ s, (m s).2.2 ≤ n) (hk : n ≤ k) (s : Stream) : (m s).2.2 ≤ k := Nat.le_trans (h s) hk
theorem longHeader_ticks (b : U8) : ∀ s, (LongPacketHeader.fromStreamT b s).2.2 ≤ 4 + 512 := by
  have bound (n : U8) : n.toNat ≤ 255 := Nat.le_of_lt_succ n.isLt
  refine Tk.bind_ticks (uint_ticks 4 _) fun v => Tk.bind_ticks (n := 512) (k := 0) ?_ fun x => ?_
  · refine Tk.ite_ticks ?_ fun _ => ?_
    · refine Tk.mono_ticks (Tk.bind_ticks (n := 1) (k := 41) u8_ticks fun dl => ?_) (by omega)
      refine Tk.ite_ticks (fun _ => Nat.zero_le _) fun hd => ?_
      refine Tk.mono_ticks (Tk.bind_ticks (n := 20) (k := 21) (Tk.mono_ticks (u160Loop_ticks _ _ _ _) (by omega)) fun d => ?_) (by omega)
      refine Tk.mono_ticks (Tk.bind_ticks (n := 1) (k := 20) u8_ticks fun sl => ?_) (by omega)
      refine Tk.ite_ticks (fun _ => Nat.zero_le _) fun hd => ?_
      exact Tk.bind_ticks (n := 20) (k := 0) (Tk.mono_ticks (u160Loop_ticks _ _ _ _) (by omega)) fun d _ => Nat.le_refl 0
    · refine Tk.bind_ticks (n := 1) (k := 511) u8_ticks fun dl => ?_
      refine Tk.bind_ticks (n := 255) (k := 256) (Tk.mono_ticks (varBytes_ticks _) (bound dl)) fun d => ?_
      refine Tk.bind_ticks (n := 1) (k := 255) u8_ticks fun sl => ?_
      exact Tk.bind_ticks (n := 255) (k := 0) (Tk.mono_ticks (varBytes_ticks _) (bound sl)) fun _ _ => Nat.le_refl 0
  · obtain ⟨vn, dl, d, sl, s⟩ := x
    exact Tk.bind_ticks (n := 0) (k := 0) (m := Tk.lift _) (fun _ => Nat.le_refl 0) fun _ _ => Nat.le_refl 0
theorem nextHeader_ticks : ∀ s, (nextHeaderFromStreamT s).2.2 ≤ 517 := by
  refine Tk.bind_ticks (n := 1) (k := 516) (m := nextOrT _) (fun _ => Nat.le_refl 1) fun b => Tk.ite_ticks ?_ fun _ => ?_
  · exact Tk.bind_ticks (n := 516) (k := 0) (longHeader_ticks b) fun _ _ => Nat.le_refl 0
  · refine Tk.mono_ticks (Tk.bind_ticks (n := 8) (k := 0) (Tk.bind_ticks (n := 8) (k := 0) (Tk.bind_ticks (n := 8) (k := 0) (uint_ticks 8 _) ?_) ?_) ?_) (by omega) <;>
      exact fun _ _ => Nat.le_refl 0

/-- What is needed of a connection: header protection masks take at most 16 bytes, and decryption does not add bytes. -/
structure Frugal (c : Connection) (sp : PnSpace) : Prop where
  mask : ∀ o, (c.getRemoteHpMaskT sp o).1 = (c.getRemoteHpMask sp o).1 ∧ (c.getRemoteHpMaskT sp o).2.2 ≤ 16
  open_ : ∀ data ad pn p, c.decryptRemotePayload sp data ad pn = .ok p → p.length ≤ data.length

theorem Frugal.cost {c : Connection} {sp : PnSpace} (hc : Frugal c sp) (o : Stream) : Cost 5 16 (fun _ => 0) 1 ((c.getRemoteHpMaskT sp).on o) (Rd.lift (c.getRemoteHpMask sp o).1) :=
  .on (hc.mask o).1 (hc.mask o).2 (fun _ _ => by omega) (Nat.le_refl _)
/-- Decryption and the frames: four for each byte of the protected payload. -/
theorem Frugal.payload {c : Connection} {sp : PnSpace} (hc : Frugal c sp) {data ad : Bytes} {pn : U64} {f : List Frame → α} (ha : 4 * data.length + ad.length + 3 ≤ a) :
    Cost 5 a (fun _ => 0) 1
      (Tk.work (data.length + ad.length) (c.decryptRemotePayload sp data ad pn) >>= fun fd => deserializeFramesT.on (makeResultStream fd) >>= fun fs => Pure.pure (f fs))
      (Rd.lift (c.decryptRemotePayload sp data ad pn) >>= fun fd => Rd.lift (deserializeFrames (makeResultStream fd)).1 >>= fun fs => Pure.pure (f fs)) := by
  refine .give (φ := fun fd => 3 * fd.length + 3) (.work (by omega) fun y hy => ?_) fun fd => .pay (n := 3 * fd.length + 3) ?_ (Nat.le_refl _) fun _ => .pure0 _
  · have := hc.open_ _ _ _ _ hy
    omega
  · obtain ⟨e1, _, e2, _⟩ := frames_cost (makeResultStream fd)
    rw [makeResultStream_length] at e2
    exact .on e1 e2 (fun _ _ => Nat.le_refl _) (Nat.le_refl _)

theorem toVarBytes_len {x : U160} {n : Nat} {bs : Bytes} (h : x.toVarBytes n = .ok bs) : bs.length ≤ 20 := by
  unfold U160.toVarBytes at h
  split at h
  · cases h
  · cases h
    rw [List.length_take]
    omega
theorem longBytes_len {h : LongPacketHeader} {bs : Bytes} (e : h.toBytes = .ok bs) : bs.length ≤ 47 := by
  obtain ⟨d, h1, e⟩ := Out.bind_eq_ok e
  obtain ⟨s, h2, e⟩ := Out.bind_eq_ok e
  cases e
  have := toVarBytes_len h1
  have := toVarBytes_len h2
  simp [toBeBytes]
  omega
theorem shortBytes_len {h : ShortPacketHeader} {bs : Bytes} (e : h.toBytes = .ok bs) : bs.length ≤ 47 := by
  obtain ⟨d, h1, e⟩ := Out.bind_eq_ok e
  cases e
  have := toVarBytes_len h1
  simp
  omega
theorem xorPn_len {bs out : Bytes} {m : Mask} (e : xorPnProtection bs m = .ok out) : out.length ≤ 4 := by
  unfold xorPnProtection at e
  split at e
  · cases e
  · cases e
    rw [List.length_zipWith]
    simp
    omega
theorem sliceTo_len {xs ys : Bytes} {n : Nat} (e : sliceTo xs n = .ok ys) : ys.length ≤ xs.length := by
  unfold sliceTo at e
  split at e
  · cases e
    rw [List.length_take]
    omega
  · cases e

theorem initial_cost {bp : Profile} {c : Connection} (hc : Frugal c .initial) : Cost 5 70 (fun _ => 0) 1 (PacketInitial.fromStreamT bp c) (PacketInitial.fromStream bp c) := by
  refine .seq0 (u8_cost 4) fun hb => .seq0 (longHeader_cost 4 hb) fun h => .seq (varIntWithBytes_cost 3) fun x => ?_
  obtain ⟨tl, tlb⟩ := x
  refine .seq (varBytes_cost 4 _) fun token => .seq (varIntWithBytes_cost 3) fun y => ?_
  obtain ⟨len, lb⟩ := y
  refine .seq0 (varBytes_cost 4 4) fun pnb => .cloned_bind fun o => .pay (hc.cost o) (by dsimp only; omega) fun mask => ?_
  refine .lift_bind fun pl _ => .lift_bind fun un hun => .lift_bind fun pn hpn => .lift_bind fun _ _ => .lift_bind fun n _ => .seq (varBytes_cost 4 _) fun data =>
    .lift_bind fun hbs hhb => hc.payload ?_
  have := xorPn_len hun
  have := sliceTo_len hpn
  have := longBytes_len hhb
  simp only [List.length_append]
  omega
theorem handshake_cost {bp : Profile} {c : Connection} (hc : Frugal c .handshake) : Cost 5 70 (fun _ => 0) 1 (PacketHandshake.fromStreamT bp c) (PacketHandshake.fromStream bp c) := by
  refine .seq0 (u8_cost 4) fun hb => .seq0 (longHeader_cost 4 hb) fun h => .seq (varIntWithBytes_cost 3) fun x => ?_
  obtain ⟨len, lb⟩ := x
  refine .seq0 (varBytes_cost 4 4) fun pnb => .cloned_bind fun o => .pay (hc.cost o) (by dsimp only; omega) fun mask => ?_
  refine .lift_bind fun pl _ => .lift_bind fun un hun => .lift_bind fun pn hpn => .lift_bind fun _ _ => .lift_bind fun n _ => .seq (varBytes_cost 4 _) fun data =>
    .lift_bind fun hbs hhb => hc.payload ?_
  have := xorPn_len hun
  have := sliceTo_len hpn
  have := longBytes_len hhb
  simp only [List.length_append]
  omega
theorem zeroRtt_cost {bp : Profile} {c : Connection} (hc : Frugal c .application) : Cost 5 70 (fun _ => 0) 1 (PacketZeroRtt.fromStreamT bp c) (PacketZeroRtt.fromStream bp c) := by
  refine .seq0 (u8_cost 4) fun hb => .seq0 (longHeader_cost 4 hb) fun h => .seq (varIntWithBytes_cost 3) fun x => ?_
  obtain ⟨len, lb⟩ := x
  refine .seq0 (varBytes_cost 4 4) fun pnb => .cloned_bind fun o => .pay (hc.cost o) (by dsimp only; omega) fun mask => ?_
  refine .lift_bind fun pl _ => .lift_bind fun un hun => .lift_bind fun pn hpn => .lift_bind fun _ _ => .lift_bind fun n _ => .seq (varBytes_cost 4 _) fun data =>
    .lift_bind fun hbs hhb => .lift_bind fun ad had => hc.payload ?_
  have := xorPn_len hun
  have := sliceTo_len hpn
  have := sliceTo_len had
  have := longBytes_len hhb
  simp only [List.length_append]
  omega
theorem oneRtt_cost {bp : Profile} {c : Connection} (hc : Frugal c .application) : Cost 5 71 (fun _ => 0) 1 (PacketOneRtt.fromStreamT bp c) (PacketOneRtt.fromStream bp c) := by
  refine .seq0 (u8_cost 4) fun hb => .seq0 (shortHeader_cost 4 hb) fun h => ?_
  refine .seq0 (varBytes_cost 4 4) fun pnb => .cloned_bind fun o => .pay (hc.cost o) (by omega) fun mask => ?_
  refine .lift_bind fun pl _ => .lift_bind fun un hun => .lift_bind fun pn hpn => .lift_bind fun _ _ => ?_
  refine (Cost.bind (a' := 54) (allBytes_cost 4) fun data => .lift_bind fun hbs hhb => hc.payload ?_).mono (by omega)
  have := xorPn_len hun
  have := sliceTo_len hpn
  have := shortBytes_len hhb
  simp only [List.length_append]
  omega
theorem versionNegotiation_cost : Cost 5 1 (fun _ => 0) 1 PacketVersionNegotiation.fromStreamT PacketVersionNegotiation.fromStream := by
  refine .seq0 (u8_cost 4) fun hb => .seq0 (longHeader_cost 4 hb) fun h => .give (allBytes_cost 4) fun bs => .ite (.fail _) (.pay (n := bs.length) ?_ ?_ fun _ => .pure0 _)
  · exact .work (Nat.le_refl _) fun _ _ => Nat.le_refl _
  · omega
theorem retry_cost : Cost 5 0 (fun _ => 0) 1 PacketRetry.fromStreamT PacketRetry.fromStream := .lift fun _ h => by cases h

/-- The packet after its header has been looked at. -/
theorem body_cost {bp : Profile} {c : Connection} (hc : ∀ sp, Frugal c sp) (x : PacketHeader) : Cost 5 71 (fun _ => 0) 1
    (match x with
      | .short _ => do let res ← PacketOneRtt.fromStreamT bp c; pure (Packet.oneRtt res)
      | .long x => do
        let t ← Tk.lift x.packetType
        match t with
        | .handshake => do let res ← PacketHandshake.fromStreamT bp c; pure (.handshake res)
        | .initial => do let res ← PacketInitial.fromStreamT bp c; pure (.initial res)
        | .zeroRtt => do let res ← PacketZeroRtt.fromStreamT bp c; pure (.zeroRtt res)
        | .retry => do let res ← PacketRetry.fromStreamT; pure (.retry res)
        | .versionNegotiation => do let res ← PacketVersionNegotiation.fromStreamT; pure (.versionNegotiation res)
        | _ => Tk.lift (.panic "internal error: entered unreachable code"))
    (match x with
      | .short _ => do let res ← PacketOneRtt.fromStream bp c; pure (Packet.oneRtt res)
      | .long x => do
        let t ← Rd.lift x.packetType
        match t with
        | .handshake => do let res ← PacketHandshake.fromStream bp c; pure (.handshake res)
        | .initial => do let res ← PacketInitial.fromStream bp c; pure (.initial res)
        | .zeroRtt => do let res ← PacketZeroRtt.fromStream bp c; pure (.zeroRtt res)
        | .retry => do let res ← PacketRetry.fromStream; pure (.retry res)
        | .versionNegotiation => do let res ← PacketVersionNegotiation.fromStream; pure (.versionNegotiation res)
        | _ => Rd.lift (.panic "internal error: entered unreachable code")) := by
  cases x with
  | short x => exact .pay (oneRtt_cost (hc _)) (by omega) fun _ => .pure0 _
  | long x =>
    refine .lift_bind fun t _ => ?_
    cases t with
    | handshake => exact .pay (handshake_cost (hc _)) (by omega) fun _ => .pure0 _
    | initial => exact .pay (initial_cost (hc _)) (by omega) fun _ => .pure0 _
    | zeroRtt => exact .pay (zeroRtt_cost (hc _)) (by omega) fun _ => .pure0 _
    | retry => exact .pay retry_cost (by omega) fun _ => .pure0 _
    | versionNegotiation => exact .pay versionNegotiation_cost (by omega) fun _ => .pure0 _
    | _ => exact .lift fun _ h => by cases h

/-- One packet: the header is read twice. -/
theorem decodeNext_cost {bp : Profile} {c : Connection} (hc : ∀ sp, Frugal c sp) (s : Stream) :
    (decodeNextPacketT bp c s).1 = (decodeNextPacket bp c s).1 ∧ (decodeNextPacketT bp c s).2.1 = (decodeNextPacket bp c s).2 ∧
    (decodeNextPacketT bp c s).2.2 + 5 * (decodeNextPacket bp c s).2.length ≤ (nextHeaderFromStreamT s).2.2 + 5 * s.length + 72 ∧
    s.length ≤ (decodeNextPacket bp c s).2.length + (decodeNextPacketT bp c s).2.2 := by
  have hh := (nextHeader_cost 0 s).1
  have key : Cost 5 ((nextHeaderFromStreamT s).2.2 + 71) (fun _ => 0) 1 (nextHeaderFromStreamT.onUnwrap s >>= _) (Rd.lift (nextHeaderFromStream s).1.unwrap >>= _) :=
    .pay (n := (nextHeaderFromStreamT s).2.2) (m := nextHeaderFromStreamT.onUnwrap s) (r := Rd.lift (nextHeaderFromStream s).1.unwrap) ?_ (by omega) fun x => (body_cost (bp := bp) hc x).mono (by omega)
  · obtain ⟨k1, k2, _, _, k5, k6⟩ := key s
    refine ⟨k1, k2, Nat.le_trans (Nat.le_of_eq ?_) (Nat.le_trans k5 (by omega)), Nat.le_trans k6 (Nat.le_of_eq ?_)⟩
    · exact congrArg (· + _) (Nat.zero_add _)
    · exact congrArg (_ + ·) (Nat.zero_add _).symm
  · intro s'
    refine ⟨?_, rfl, Nat.le_refl _, fun y hy => ?_, ?_, Nat.le_add_right _ _⟩
    · show (nextHeaderFromStreamT s).1.unwrap = _
      rw [hh]; rfl
    · show (nextHeaderFromStreamT s).2.2 + 5 * s'.length + 0 ≤ _
      omega
    · show (nextHeaderFromStreamT s).2.2 + 5 * s'.length ≤ _
      omega

theorem frugal_of_keys {P : Prims} (hP : PrimLaws P) {c : Connection} {sp : PnSpace} (hc : KeysOrNone P c sp) : Frugal c sp := by
  have hm := (Cost.lift_bind (K := 1) (a := 0) (b := 1) (ψ := fun _ => 0) (x := c.remoteSecrets sp) (f := fun s => s.getHeaderProtectionMaskT) (g := fun s => s.getHeaderProtectionMask)
    fun s _ => .seq0 (varBytes_cost 0 _) fun _ => .lift fun _ _ => Nat.le_refl 0)
  rcases hc with ⟨k, hk⟩ | ⟨e, he⟩
  · refine ⟨fun o => ⟨(hm o).1, ?_⟩, fun data ad pn p h => ?_⟩
    · unfold Connection.getRemoteHpMaskT
      rw [hk]
      rw [Tk.bind_apply]
      show 0 + ((secretsOf P k).getHeaderProtectionMaskT o).2.2 ≤ 16
      rw [Nat.zero_add]
      exact Tk.bind_ticks (k := 0) (varBytes_ticks 16) (fun _ _ => Nat.le_refl 0) o
    · rw [decrypt_eq hk] at h
      obtain ⟨ct, tag, rfl, h1, h2⟩ := internalDecrypt_ok.mp h
      have := (hP.seal_length _ _ _ _ _ _ (hP.seal_open _ _ _ _ _ _ h1 h2)).1
      rw [List.length_append]
      omega
  · refine ⟨fun o => ⟨(hm o).1, ?_⟩, fun data ad pn p h => ?_⟩
    · unfold Connection.getRemoteHpMaskT
      rw [he]
      exact Nat.zero_le _
    · unfold Connection.decryptRemotePayload at h
      rw [he] at h
      cases h

/-- A packet that is delivered, other than Version Negotiation, has a header of at most 47 bytes. -/
theorem initial_header {bp : Profile} {c : Connection} {s s' : Stream} {p : Packet} (h : decodeNextPacket bp c s = (.ok p, s')) (hp : p.kind = .initial) :
    (nextHeaderFromStreamT s).2.2 ≤ 47 := by
  obtain ⟨x, s1, hx⟩ := decodeNext_header h
  have h4 := (nextHeader_cost 0 s).2.2.2.1
  rw [hx] at h4
  have h4 := h4 x rfl
  cases x with
  | short x =>
    rw [decodeNext_short hx] at h
    obtain ⟨q, _, _, e⟩ := Rd.bind_eq_ok h
    cases e
    cases hp
  | long x =>
    have hk := decoded_kind hx h
    rw [hp] at hk
    obtain ⟨bs, rfl, ⟨vb, d, s, rfl, w2, _, w4, w5, w6⟩, h128, _⟩ := nextHeader_long_iff.mp hx
    have hv : ¬ x.version.toNat = 0 := by
      intro e
      unfold packetKind at hk
      rw [if_neg (by omega), if_pos e] at hk
      cases hk
    rw [if_neg hv] at w6
    simp only [List.length_append, makeResultStream_length, List.length_cons, List.length_nil] at h4
    omega

theorem decodePacketsLoop_cost {P : Prims} (hP : PrimLaws P) {bp bp' : Profile} {c : Connection} (hr : Connection.Reachable P bp c) (fuel : Nat) (s : Stream) :
    (decodePacketsLoopT bp' c fuel s).1 = (decodePacketsLoop bp' c fuel s).1 ∧ (decodePacketsLoopT bp' c fuel s).2.1 = (decodePacketsLoop bp' c fuel s).2 ∧
    (decodePacketsLoopT bp' c fuel s).2.2 ≤ 10 * s.length + 75 ∧ (s = [] → (decodePacketsLoopT bp' c fuel s).2.2 ≤ 1) ∧
    s.length ≤ (decodePacketsLoop bp' c fuel s).2.length + (decodePacketsLoopT bp' c fuel s).2.2 := by
  have hc := fun sp => frugal_of_keys hP (reachable_keysOrNone hP hr sp)
  induction fuel generalizing s with
  | zero => cases s <;> exact ⟨rfl, rfl, by simp [decodePacketsLoopT], fun _ => by simp [decodePacketsLoopT], by simp [decodePacketsLoop]⟩
  | succ fuel ih =>
    cases s with
    | nil => exact ⟨rfl, rfl, by simp [decodePacketsLoopT], fun _ => by simp [decodePacketsLoopT], by simp⟩
    | cons x s =>
      simp only [decodePacketsLoopT, decodePacketsLoop]
      obtain ⟨e1, e2, e5, e6⟩ := decodeNext_cost (bp := bp') hc (x :: s)
      have hh := (nextHeader_cost 0 (x :: s)).2.2.2.2
      have hi := fun s' p h => initial_header (bp := bp') (c := c) (s := x :: s) (s' := s') (p := p) h
      have hd := fun s' p h => C77_packet P hP bp bp' c hr (x :: s) s' p h
      have hk := fun s' p h => C34_never_decoded P hP bp bp' c hr (x :: s) s' p h
      have hv := fun s' p h => (C38_version_negotiation bp' c (x :: s) s' p).mp h
      generalize (nextHeaderFromStreamT (x :: s)).2.2 = t at e5 hh hi
      generalize (x :: s).length = L at *
      rcases hm : decodeNextPacketT bp' c (x :: s) with ⟨o, s1, n⟩
      rw [hm] at e1 e2 e5 e6
      dsimp only at e1 e2 e5 e6
      have hr : decodeNextPacket bp' c (x :: s) = (o, s1) := by rw [e1, e2]
      rw [hr] at e5 e6 hi hd hk hv ⊢
      dsimp only at e5 e6
      cases o with
      | ok p =>
        have hd := hd s1 p rfl
        have hcost : n + 1 + 10 * s1.length ≤ 10 * L ∨ (s1 = [] ∧ n ≤ 6 * L + 73) := by
          rcases hk s1 p rfl with e | e
          · have := hi s1 p rfl e
            have := hd.2 e
            exact .inl (by omega)
          · cases p with
            | versionNegotiation p =>
              obtain ⟨rfl, _⟩ := hv s1 p rfl
              exact .inr ⟨rfl, by simp at e5; omega⟩
            | _ => cases e
        obtain ⟨i1, i2, i3, i4, i5⟩ := ih s1
        show (match decodePacketsLoopT bp' c fuel s1 with
          | (Out.ok fs, s'', m) => ((Out.ok (p :: fs), s'', 1 + n + m) : Out (List Packet) × Stream × Nat)
          | (Out.err e, s'', m) => (Out.err e, s'', 1 + n + m)
          | (Out.panic w, s'', m) => (Out.panic w, s'', 1 + n + m)).1 = (match decodePacketsLoop bp' c fuel s1 with
          | (Out.ok fs, s'') => ((Out.ok (p :: fs), s'') : Out (List Packet) × Stream)
          | r => r).1 ∧ (match decodePacketsLoopT bp' c fuel s1 with
          | (Out.ok fs, s'', m) => ((Out.ok (p :: fs), s'', 1 + n + m) : Out (List Packet) × Stream × Nat)
          | (Out.err e, s'', m) => (Out.err e, s'', 1 + n + m)
          | (Out.panic w, s'', m) => (Out.panic w, s'', 1 + n + m)).2.1 = (match decodePacketsLoop bp' c fuel s1 with
          | (Out.ok fs, s'') => ((Out.ok (p :: fs), s'') : Out (List Packet) × Stream)
          | r => r).2 ∧ (match decodePacketsLoopT bp' c fuel s1 with
          | (Out.ok fs, s'', m) => ((Out.ok (p :: fs), s'', 1 + n + m) : Out (List Packet) × Stream × Nat)
          | (Out.err e, s'', m) => (Out.err e, s'', 1 + n + m)
          | (Out.panic w, s'', m) => (Out.panic w, s'', 1 + n + m)).2.2 ≤ 10 * L + 75 ∧ (_ = [] → _) ∧ _ ≤ List.length (match decodePacketsLoop bp' c fuel s1 with
          | (Out.ok fs, s'') => ((Out.ok (p :: fs), s'') : Out (List Packet) × Stream)
          | r => r).2 + (match decodePacketsLoopT bp' c fuel s1 with
          | (Out.ok fs, s'', m) => ((Out.ok (p :: fs), s'', 1 + n + m) : Out (List Packet) × Stream × Nat)
          | (Out.err e, s'', m) => (Out.err e, s'', 1 + n + m)
          | (Out.panic w, s'', m) => (Out.panic w, s'', 1 + n + m)).2.2
        rcases hl : decodePacketsLoopT bp' c fuel s1 with ⟨o2, s2, n2⟩
        rw [hl] at i1 i2 i3 i4 i5
        dsimp only at i1 i2 i3 i4 i5
        have hr2 : decodePacketsLoop bp' c fuel s1 = (o2, s2) := by rw [i1, i2]
        rw [hr2] at i5 ⊢
        dsimp only at i5
        have hn : 1 + n + n2 ≤ 10 * L + 75 := by
          rcases hcost with h | ⟨h, h'⟩
          · omega
          · have := i4 h
            omega
        cases o2 <;> exact ⟨rfl, rfl, hn, fun e => (by cases e), by dsimp only; omega⟩
      | err e => exact ⟨rfl, rfl, by dsimp only; omega, fun e => (by cases e), by dsimp only; omega⟩
      | panic e => exact ⟨rfl, rfl, by dsimp only; omega, fun e => (by cases e), by dsimp only; omega⟩

end QuicSea
