import Verif.Props.Concat
/-
C145: what is cut off a payload costs frames at its end and changes no others.
C146: PADDING frames (RFC 9000 section 19.1) change no other frames.
-/
namespace Spec
open QuicSea

/-- Two STREAM frames of which one has only the beginning of the other's data. -/
def ShorterStream (x y : FrameStream) : Prop := x.streamId = y.streamId ∧ x.offset = y.offset ∧ x.isFin = y.isFin ∧ x.streamData <+: y.streamData

/-- The frames `gs` are the first ones of `fs`, except that the last may be a STREAM frame that breaks off, and then nothing follows it in `fs` either. -/
def CutOf (gs fs : List Frame) : Prop :=
  gs <+: fs ∨ ∃ hs x y, gs = hs ++ [.stream x] ∧ fs = hs ++ [.stream y] ∧ ShorterStream x y

/-- C145: what is left of a payload when its end is cut off. -/
def C145Statement : Prop :=
  ∀ (a b : Bytes) (fs : List Frame), (deserializeFrames (makeResultStream (a ++ b))).1 = .ok fs →
    (∃ e, (deserializeFrames (makeResultStream a)).1 = .err e) ∨ ∃ gs, (deserializeFrames (makeResultStream a)).1 = .ok gs ∧ CutOf gs fs

/-- The frames that are not PADDING. -/
def others : Out (List Frame) → Out (List Frame)
  | .ok fs => .ok (fs.filter fun f => decide (f ≠ .padding))
  | .err e => .err e
  | .panic w => .panic w

/-- C146: zero bytes between the frames of a payload are of no consequence for the others, unless a frame before them runs to the end. -/
def C146Statement : Prop :=
  ∀ (a b : Bytes) (fs : List Frame) (n : Nat), (deserializeFrames (makeResultStream a)).1 = .ok fs → ¬ OpenEnded a →
    others (deserializeFrames (makeResultStream (a ++ (List.replicate n 0 ++ b)))).1 = others (deserializeFrames (makeResultStream (a ++ b))).1
end Spec

namespace QuicSea
open Spec

/-- C145. -/
theorem C145_all : C145Statement := by
  intro a b fs h
  rcases C13_frames_total (makeResultStream a) with ⟨gs, hg⟩ | he
  · refine .inr ⟨gs, hg, ?_⟩
    by_cases hl : ∀ x, gs.getLast? ≠ some (.stream x)
    · have := C144_follow_partial a gs hg hl (makeResultStream b)
      rw [← makeResultStream_append, h] at this
      cases hb : (deserializeFrames (makeResultStream b)).1 with
      | ok l =>
        rw [hb] at this
        exact .inl ⟨l, (Out.ok.inj this).symm⟩
      | err e => rw [hb] at this; cases this
      | panic e => rw [hb] at this; cases this
    · obtain ⟨x, hx⟩ := Classical.not_forall.mp hl
      obtain ⟨hs, rfl⟩ := List.getLast?_eq_some_iff.mp (Classical.not_not.mp hx)
      have := C144_swallowed a hs x hg b
      rw [h] at this
      exact .inr ⟨hs, x, _, rfl, Out.ok.inj this, rfl, rfl, rfl, ⟨b, rfl⟩⟩
  · exact .inl he
/-- CRYPTO, PING and STREAM, cut after the PING, and within the data of the STREAM frame, and within the CRYPTO frame. -/
example : (deserializeFrames (makeResultStream ([0x06, 0, 1, 7, 1] ++ [8, 4, 5, 6]))).1 = .ok [.crypto ⟨0, 1, [7]⟩, .ping, .stream ⟨4, 0, 2, [5, 6], false⟩] ∧
    (deserializeFrames (makeResultStream [0x06, 0, 1, 7, 1])).1 = .ok [.crypto ⟨0, 1, [7]⟩, .ping] ∧
    (deserializeFrames (makeResultStream [0x06, 0, 1, 7, 1, 8, 4, 5])).1 = .ok [.crypto ⟨0, 1, [7]⟩, .ping, .stream ⟨4, 0, 1, [5], false⟩] ∧
    (deserializeFrames (makeResultStream [0x06, 0, 1])).1.isErr = true := by decide +kernel

theorem frames_zeros (n : Nat) : (deserializeFrames (makeResultStream (List.replicate n 0))).1 = .ok (List.replicate n .padding) := by
  induction n with
  | zero => rfl
  | succ n ih =>
    have h : deserializeFrame (makeResultStream (List.replicate (n + 1) 0)) = (.ok .padding, makeResultStream (List.replicate n 0)) := rfl
    rw [frames_cons (by simp [List.replicate_succ, makeResultStream]) h, ih]
    rfl
theorem zeros_last (n : Nat) (x : FrameStream) : (List.replicate n Frame.padding).getLast? ≠ some (.stream x) := by
  intro h
  have := List.mem_of_getLast? h
  cases (List.mem_replicate.mp this).2
theorem others_after (fs : List Frame) (x y : Out (List Frame)) (h : others x = others y) : others (afterFrames fs x) = others (afterFrames fs y) := by
  cases x <;> cases y <;> simp_all [others, afterFrames]
theorem others_padding (n : Nat) (x : Out (List Frame)) : others (afterFrames (List.replicate n .padding) x) = others x := by
  cases x <;> simp [others, afterFrames]

/-- C146 where the last frame before the zero bytes is not a STREAM frame, whatever comes after them. Missing for the full statement: STREAM frames with a Length field, for which
it is false. -/
theorem C146_none_lost_partial (a b : Bytes) (fs : List Frame) (n : Nat) (h : (deserializeFrames (makeResultStream a)).1 = .ok fs) (hl : ∀ x, fs.getLast? ≠ some (.stream x)) :
    others (deserializeFrames (makeResultStream (a ++ (List.replicate n 0 ++ b)))).1 = others (deserializeFrames (makeResultStream (a ++ b))).1 := by
  rw [makeResultStream_append, C144_follow_partial a fs h hl, makeResultStream_append, C144_follow_partial _ _ (frames_zeros n) (zeros_last n), makeResultStream_append,
    C144_follow_partial a fs h hl]
  exact others_after _ _ _ (others_padding _ _)

/-- C146, where the frame before is a STREAM frame: the zero bytes become data of the stream. -/
theorem C146_data (a b : Bytes) (fs : List Frame) (x : FrameStream) (n : Nat) (h : (deserializeFrames (makeResultStream a)).1 = .ok (fs ++ [.stream x])) :
    ∃ y, (deserializeFrames (makeResultStream (a ++ (List.replicate n 0 ++ b)))).1 = .ok (fs ++ [.stream y]) ∧ y.streamData = x.streamData ++ (List.replicate n 0 ++ b) :=
  ⟨_, C144_swallowed a fs x h _, rfl⟩

/-- C146, exactly: padding is of no consequence just when the frame before it is not a STREAM frame. -/
theorem C146_iff (a b : Bytes) (fs : List Frame) (n : Nat) (hn : n ≠ 0) (h : (deserializeFrames (makeResultStream a)).1 = .ok fs) :
    others (deserializeFrames (makeResultStream (a ++ (List.replicate n 0 ++ b)))).1 = others (deserializeFrames (makeResultStream (a ++ b))).1 ↔
      ∀ x, fs.getLast? ≠ some (.stream x) := by
  refine ⟨fun q x hx => ?_, C146_none_lost_partial a b fs n h⟩
  obtain ⟨gs, rfl⟩ := List.getLast?_eq_some_iff.mp hx
  rw [C144_swallowed a gs x h, C144_swallowed a gs x h] at q
  simp only [others, List.filter_append, List.filter_cons, List.filter_nil] at q
  have q := List.append_cancel_left (Out.ok.inj q)
  simp at q
  exact hn q.2
/-- Zero bytes after CRYPTO, and after STREAM with a Length field of one byte. -/
example : others (deserializeFrames (makeResultStream ([0x06, 0, 1, 7] ++ (List.replicate 3 0 ++ [1])))).1 = .ok [.crypto ⟨0, 1, [7]⟩, .ping] ∧
    others (deserializeFrames (makeResultStream ([0x0a, 4, 1, 5] ++ (List.replicate 3 0 ++ [1])))).1 = .ok [.stream ⟨4, 0, 6, [1, 5, 0, 0, 0, 1], false⟩] := by decide +kernel

theorem C146_false : ¬ C146Statement := by
  intro h
  have := h [0x0a, 0, 0] [] [.stream ⟨0, 0, 1, [0], false⟩] 1 (by decide +kernel) length_frame_closed
  exact absurd this (by decide +kernel)

end QuicSea
