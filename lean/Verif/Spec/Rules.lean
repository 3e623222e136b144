import Verif.Spec.Frame
import Verif.Spec.Header
/-
RFC 9000 rules on what a well-formed packet may contain. Only data types of the model are used, none of its functions.
-/
namespace Spec
open QuicSea

/-- RFC 9000 section 12.4, table 3: which frames may be in which packets. -/
def permitted : PacketType → Frame → Bool
  | .initial, f | .handshake, f =>
    match f with
    | .padding | .ping | .ack _ | .crypto _ => true
    | .connectionClose x => !x.isApplicationError
    | _ => false
  | .zeroRtt, f =>
    match f with
    | .ack _ | .crypto _ | .newToken _ | .retireConnectionId _ | .pathResponse _ | .handshakeDone => false
    | _ => true
  | .oneRtt, _ => true
  | _, _ => false

/-- RFC 9000 section 19.3.1: no acknowledged number is negative. `smallest` is the smallest number acknowledged so far. -/
def rangesOk : Nat → List AckRange → Bool
  | _, [] => true
  | smallest, r :: rs => decide (r.gap.toNat + 2 + r.ackRangeLength.toNat ≤ smallest) && rangesOk (smallest - r.gap.toNat - 2 - r.ackRangeLength.toNat) rs

/-- RFC 9000 sections 19.3, 19.6, 19.7, 19.8, 19.11, 19.14, 19.15: values that are errors although they can be encoded. -/
def valid : Frame → Bool
  | .ack x => decide (x.firstAckRange.toNat ≤ x.largestAcknowledged.toNat) && rangesOk (x.largestAcknowledged.toNat - x.firstAckRange.toNat) x.ackRange
  | .crypto x => decide (x.offset.toNat + x.length.toNat ≤ 2 ^ 62 - 1)
  | .newToken x => decide (x.token ≠ [])
  | .stream x => decide (x.offset.toNat + x.length.toNat ≤ 2 ^ 62 - 1)
  | .maxStreams x => decide (x.maximumStreams.toNat ≤ 2 ^ 60)
  | .streamsBlocked x => decide (x.maximumStreams.toNat ≤ 2 ^ 60)
  | .newConnectionId x => decide (x.retirePriorTo.toNat ≤ x.sequenceNumber.toNat ∧ 1 ≤ x.length.toNat ∧ x.length.toNat ≤ 20)
  | _ => true

example : permitted .initial (.crypto ⟨0, 1, [5]⟩) = true ∧ permitted .initial (.maxData ⟨5⟩) = false ∧ permitted .zeroRtt (.maxData ⟨5⟩) = true := by
  decide
/-- Acknowledging 7, 6 and 2 to 0 is possible; going on to gap 0 is not. -/
example : valid (.ack ⟨7, 0, 1, 1, [⟨2, 2⟩], none⟩) = true ∧ valid (.ack ⟨7, 0, 2, 1, [⟨2, 2⟩, ⟨0, 0⟩], none⟩) = false := by decide

end Spec
