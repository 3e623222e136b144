import Verif.Props.Broken
import Verif.Props.Authentic
/-
C144: frames are parsed one after the other (RFC 9000 section 12.4: a packet's payload is a sequence of frames).
-/
namespace Spec
open QuicSea

/-- What comes of frames before others, or before a failure. -/
def afterFrames (fs : List Frame) : Out (List Frame) → Out (List Frame)
  | .ok gs => .ok (fs ++ gs)
  | .err e => .err e
  | .panic w => .panic w

/-- After some frames of RFC 9000 the payload has a STREAM frame without a Length field (RFC 9000 section 19.8: its type has the bit 0x02 clear), which runs to the end of the packet. -/
def OpenEnded (a : Bytes) : Prop :=
  ∃ (before ty rest : Bytes) (t : Nat) (fs : List Frame), a = before ++ ty ++ rest ∧ IsVarInt ty t ∧ (t = 0x08 ∨ t = 0x09 ∨ t = 0x0c ∨ t = 0x0d) ∧
    FramesWire fs before

/-- C144: frames that were parsed are parsed in the same way when more follow, and what follows as if it were alone, unless a frame runs to the end. -/
def C144Statement : Prop :=
  ∀ (a b : Bytes) (fs : List Frame), (deserializeFrames (makeResultStream a)).1 = .ok fs → ¬ OpenEnded a →
    (deserializeFrames (makeResultStream (a ++ b))).1 = afterFrames fs (deserializeFrames (makeResultStream b)).1
end Spec

namespace QuicSea
open Spec

theorem frames_nil : deserializeFrames [] = (.ok [], []) := rfl
theorem afterFrames_nil (x : Out (List Frame)) : afterFrames [] x = x := by cases x <;> rfl
theorem afterFrames_cons (f : Frame) (fs : List Frame) (x : Out (List Frame)) : afterFrames (f :: fs) x = afterFrames [f] (afterFrames fs x) := by cases x <;> rfl
theorem frames_cons {f : Frame} {s t : Stream} (hs : s ≠ []) (h : deserializeFrame s = (.ok f, t)) : (deserializeFrames s).1 = afterFrames [f] (deserializeFrames t).1 := by
  rw [frames_step s hs, Rd.bind_apply, h]
  show ((deserializeFrames >>= fun fs => pure (f :: fs)) t).1 = _
  rw [Rd.bind_apply]
  rcases deserializeFrames t with ⟨o, t'⟩
  cases o <;> rfl
theorem frames_uncons {f : Frame} {fs : List Frame} {a : Bytes} (h : (deserializeFrames (makeResultStream a)).1 = .ok (f :: fs)) :
    ∃ (t : U64) (tb b a' : Bytes), a = tb ++ (b ++ a') ∧ IsVarInt tb t.toNat ∧ CodeBody f (t.toNat % 256) b (makeResultStream a') ∧
      (deserializeFrames (makeResultStream a')).1 = .ok fs := by
  have ha : makeResultStream a ≠ [] := by
    intro q
    rw [q] at h
    cases h
  rcases hf : deserializeFrame (makeResultStream a) with ⟨o, s'⟩
  cases o with
  | ok g =>
    rw [frames_cons ha hf] at h
    obtain ⟨t, tb, b, e, ht, hb⟩ := frame_sound hf
    obtain ⟨x, y, rfl, hx, hy⟩ := mrs_split e
    obtain ⟨y, a', rfl, hy, ha'⟩ := mrs_split hy.symm
    cases makeResultStream_inj hx
    cases makeResultStream_inj hy
    subst ha'
    cases hq : (deserializeFrames (makeResultStream a')).1 with
    | ok gs =>
      rw [hq] at h
      cases h
      exact ⟨t, tb, b, a', rfl, ht, hb, hq⟩
    | err e => rw [hq] at h; cases h
    | panic e => rw [hq] at h; cases h
  | err e =>
    rw [frames_step _ ha, Rd.bind_apply, hf] at h
    cases h
  | panic e =>
    rw [frames_step _ ha, Rd.bind_apply, hf] at h
    cases h
theorem frames_ok_nil {a : Bytes} (h : (deserializeFrames (makeResultStream a)).1 = .ok []) : a = [] := by
  refine Decidable.byContradiction fun q => ?_
  have ha : makeResultStream a ≠ [] := fun e => q (makeResultStream_inj e)
  rw [frames_step _ ha, Rd.bind_apply] at h
  rcases hf : deserializeFrame (makeResultStream a) with ⟨o, s'⟩
  rw [hf] at h
  cases o with
  | ok g =>
    have h : ((deserializeFrames >>= fun fs => pure (g :: fs)) s').1 = .ok [] := h
    rw [Rd.bind_apply] at h
    revert h
    rcases deserializeFrames s' with ⟨o, t'⟩
    intro h
    cases o <;> cases h
  | err e => cases h
  | panic e => cases h
theorem varInt_ne {b : Bytes} {n : Nat} (h : IsVarInt b n) : b ≠ [] := by
  have := h.length_pos
  intro q
  subst q
  cases this

/-- C144, exact: frames of which the last is not a STREAM frame are followed by what the rest gives, whatever the rest is, also a stream that fails. Missing for the full
statement: STREAM frames with a Length field, for which it is false. -/
theorem C144_follow_partial (a : Bytes) (fs : List Frame) (h : (deserializeFrames (makeResultStream a)).1 = .ok fs) (hl : ∀ x, fs.getLast? ≠ some (.stream x)) (s : Stream) :
    (deserializeFrames (makeResultStream a ++ s)).1 = afterFrames fs (deserializeFrames s).1 := by
  induction fs generalizing a with
  | nil =>
    cases frames_ok_nil h
    rw [afterFrames_nil]
    rfl
  | cons f fs ih =>
    obtain ⟨t, tb, b, a', rfl, ht, hb, h'⟩ := frames_uncons h
    have key : deserializeFrame (makeResultStream tb ++ (makeResultStream b ++ (makeResultStream a' ++ s))) = (.ok f, makeResultStream a' ++ s) := by
      refine frame_complete ht ?_
      generalize t.toNat % 256 = n at hb
      generalize hr : makeResultStream a' = r at hb
      cases hb with
      | std h1 h2 h3 => exact .std h1 h2 h3
      | crypto h1 h2 h3 => exact .crypto h1 h2 h3
      | stream h1 h2 h3 =>
        rw [hr] at h'
        cases h'
        exact absurd rfl (hl _)
    have hne : makeResultStream tb ++ (makeResultStream b ++ (makeResultStream a' ++ s)) ≠ [] := result_ne (varInt_ne ht) _
    rw [makeResultStream_append, makeResultStream_append, List.append_assoc, List.append_assoc, frames_cons hne key, afterFrames_cons f fs, ih a' h']
    intro x q
    refine hl x ?_
    cases fs with
    | nil => cases q
    | cons g fs => rw [List.getLast?_cons_cons]; exact q

/-- C144, exact for the other case: a STREAM frame takes whatever is appended, with or without a Length field. -/
theorem C144_swallowed (a : Bytes) (fs : List Frame) (x : FrameStream) (h : (deserializeFrames (makeResultStream a)).1 = .ok (fs ++ [.stream x])) (b : Bytes) :
    (deserializeFrames (makeResultStream (a ++ b))).1 =
      .ok (fs ++ [.stream { x with length := BitVec.ofNat 64 (x.streamData.length + b.length), streamData := x.streamData ++ b }]) := by
  induction fs generalizing a with
  | nil =>
    obtain ⟨t, tb, bd, a', rfl, ht, hb, h'⟩ := frames_uncons h
    cases frames_ok_nil h'
    rw [List.append_nil]
    generalize hn : t.toNat % 256 = n at hb
    generalize hr : makeResultStream [] = r at hb
    generalize hf : Frame.stream x = f at hb
    cases hb with
    | std h1 h2 h3 =>
      subst hf
      exact absurd (h1 false) (by intro q; cases q <;> exact h3 (by constructor <;> (repeat' split) <;> omega))
    | crypto => cases hf
    | @stream id data t b1 h1 h2 h3 =>
      cases hf
      have key := frame_complete (rest := []) ht (by rw [hn]; exact CodeBody.stream (data := data ++ b) h1 h2 h3)
      have hne : makeResultStream tb ++ (makeResultStream (b1 ++ (data ++ b)) ++ []) ≠ [] := result_ne (varInt_ne ht) _
      have := frames_cons hne key
      rw [List.append_nil] at this
      rw [List.append_assoc, List.append_assoc, makeResultStream_append, this, frames_nil]
      simp [afterFrames]
  | cons f fs ih =>
    obtain ⟨t, tb, bd, a', rfl, ht, hb, h'⟩ := frames_uncons h
    have key : deserializeFrame (makeResultStream tb ++ (makeResultStream bd ++ makeResultStream (a' ++ b))) = (.ok f, makeResultStream (a' ++ b)) := by
      refine frame_complete ht ?_
      generalize t.toNat % 256 = n at hb
      generalize hr : makeResultStream a' = r at hb
      cases hb with
      | std h1 h2 h3 => exact .std h1 h2 h3
      | crypto h1 h2 h3 => exact .crypto h1 h2 h3
      | stream h1 h2 h3 =>
        rw [hr] at h'
        cases fs <;> cases h'
    have hne : makeResultStream tb ++ (makeResultStream bd ++ makeResultStream (a' ++ b)) ≠ [] := result_ne (varInt_ne ht) _
    rw [List.append_assoc, List.append_assoc, makeResultStream_append, makeResultStream_append, frames_cons hne key, ih a' h']
    rfl

/-- C144, both together: more bytes are parsed as if they were alone exactly when the last frame is not a STREAM frame. -/
theorem C144_iff (a : Bytes) (fs : List Frame) (h : (deserializeFrames (makeResultStream a)).1 = .ok fs) (b : Bytes) (hb : b ≠ []) :
    (deserializeFrames (makeResultStream (a ++ b))).1 = afterFrames fs (deserializeFrames (makeResultStream b)).1 ↔ ∀ x, fs.getLast? ≠ some (.stream x) := by
  constructor
  · intro q x hx
    obtain ⟨gs, rfl⟩ := List.getLast?_eq_some_iff.mp hx
    rw [C144_swallowed a gs x h b] at q
    cases hq : (deserializeFrames (makeResultStream b)).1 with
    | ok l =>
      rw [hq] at q
      have := congrArg List.length (Out.ok.inj q)
      simp only [List.length_append, List.length_cons, List.length_nil] at this
      cases l with
      | nil => exact hb (frames_ok_nil hq)
      | cons => simp only [List.length_cons] at this; omega
    | err e => rw [hq] at q; cases q
    | panic e => rw [hq] at q; cases q
  · intro hl
    rw [makeResultStream_append]
    exact C144_follow_partial a fs h hl _

/-- A CRYPTO frame and a PING frame, and then another PING frame. -/
example : (deserializeFrames (makeResultStream [0x06, 0, 1, 7, 1])).1 = .ok [.crypto ⟨0, 1, [7]⟩, .ping] ∧
    (∀ x, [Frame.crypto ⟨0, 1, [7]⟩, .ping].getLast? ≠ some (.stream x)) ∧
    (deserializeFrames (makeResultStream [0x06, 0, 1, 7, 1] ++ makeResultStream [1])).1 = .ok [.crypto ⟨0, 1, [7]⟩, .ping, .ping] := by
  refine ⟨by decide +kernel, ?_, by decide +kernel⟩
  intro x q
  cases q
/-- A STREAM frame on stream 4 whose Length field says one byte, and then a PING frame: one frame of data `1 5 1`. -/
example : (deserializeFrames (makeResultStream [1, 0x0a, 4, 1, 5])).1 = .ok ([.ping] ++ [.stream ⟨4, 0, 2, [1, 5], false⟩]) ∧
    (deserializeFrames (makeResultStream ([1, 0x0a, 4, 1, 5] ++ [1]))).1 = .ok [.ping, .stream ⟨4, 0, 3, [1, 5, 1], false⟩] := by decide +kernel

/-- A PING frame and a STREAM frame of type 0x08 on stream 4, without a Length field. -/
example : OpenEnded [1, 8, 4, 5, 6] :=
  ⟨[1], [8], [4, 5, 6], 8, [.ping], rfl, ⟨0, by decide +kernel⟩, .inl rfl, .cons (b := [1]) (bs := []) ⟨1, [], .ping, by decide, rfl⟩ .nil⟩
/-- A STREAM frame of type 0x0a has a Length field. -/
theorem length_frame_closed : ¬ OpenEnded [0x0a, 0, 0] := by
  rintro ⟨before, ty, rest, t, fs, e, ht, hv, -⟩
  obtain ⟨c, r, rfl, hr⟩ := ht.shape
  have single : ∀ x : U8, x = 0x0a ∨ x = 0 → c = x → t = x.toNat := by
    rintro x hx rfl
    have : r.length = 0 := by rcases hx with rfl | rfl <;> exact hr
    cases List.length_eq_zero_iff.mp this
    have one : IsVarInt [c] c.toNat := ⟨0, by rcases hx with rfl | rfl <;> decide +kernel⟩
    exact ht.unique one
  rw [List.append_assoc] at e
  match before, e with
  | [], e =>
    have : t = 10 := single 0x0a (.inl rfl) (List.cons.inj e).1.symm
    omega
  | [x], e =>
    have : t = 0 := single 0 (.inr rfl) (List.cons.inj (List.cons.inj e).2).1.symm
    omega
  | [x, y], e =>
    have : t = 0 := single 0 (.inr rfl) (List.cons.inj (List.cons.inj (List.cons.inj e).2).2).1.symm
    omega
  | x :: y :: z :: l, e =>
    have := congrArg List.length e
    simp only [List.length_cons, List.length_append, List.length_nil] at this
    omega
/-- C144 is false: a STREAM frame with a Length field. -/
theorem C144_false : ¬ C144Statement := by
  intro h
  have := h [0x0a, 0, 0] [1] [.stream ⟨0, 0, 1, [0], false⟩] (by decide +kernel) length_frame_closed
  exact absurd this (by decide +kernel)

end QuicSea
