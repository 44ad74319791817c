import Verif.Spec.Fails
/-!
# Reading a message piece by piece

What a decode error means for somebody who will receive more bytes.
-/

namespace Iso8583

/-- How many bytes the message says are missing; `none` when it complains about something else. -/
def DecMsg.missing : DecMsg → Option Nat
  | .fieldDataBytes actual expected => some (expected - actual)
  | .lenWidth actual expected => some (expected - actual)
  | .dataShort actual unit n =>
    if n < 0 then none
    else some (if unit = py"nibbles" then ((n + 1) / 2).toNat - actual / 2 else n.toNat - actual)
  | _ => none

/-- The message is about a negative length. -/
def DecMsg.negative : DecMsg → Bool
  | .dataShort _ _ n => n < 0
  | _ => false

/-- A reader that never asks for more than `decode` says is missing: it tries what it has, and
takes that many bytes more from the connection. The first argument bounds the number of attempts. -/
def pull (env : PyEnv) (spec : Spec) : Nat → Bytes → Bytes → Option (Bytes × Bytes)
  | 0, _, _ => none
  | n + 1, have_, rest =>
    match decode env spec have_ with
    | .ok _ => some (have_, rest)
    | .error (.decodeError e) =>
      match e.msg.missing with
      | some k => pull env spec n (have_ ++ rest.take k) (rest.drop k)
      | none => none
    | .error _ => none

/-- Takes concatenated messages apart at the positions where `decode` reports extra data. -/
def splitStream (env : PyEnv) (spec : Spec) : Nat → Bytes → Option (List Bytes)
  | 0, _ => none
  | n + 1, s =>
    match decode env spec s with
    | .ok _ => some [s]
    | .error (.decodeError e) =>
      if e.msg = .extraData then (splitStream env spec n (s.drop e.pos)).map (s.take e.pos :: ·) else none
    | .error _ => none

end Iso8583
